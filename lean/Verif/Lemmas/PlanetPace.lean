import Verif.Lemmas.PoissonJet
import Verif.Lemmas.SecondDiff
import Verif.Lemmas.SunDayPlace
import Verif.Props.Geocentric

/-!
# Lemmas: how far and how unevenly a planet moves in a day, seen from the Earth
-/

namespace Verif
open Real

/-- Distance of a planet from the Earth in the plane of the ecliptic and from this plane, for each planet. -/
theorem sep_plane {o : Orbit} (ho : o ∈ orbits6) (hE : o.name ≠ "Earth") {c : Tables}
    (hc : HasTables o.name c) {t : ℝ} (ht : |millennia t| ≤ 6) :
    (planeGap o : ℝ) ^ 2 ≤ (sep c earthTables t).x ^ 2 + (sep c earthTables t).y ^ 2 ∧
    |(sep c earthTables t).z| ≤ o.rmax * o.bmax + 0.0001 := by
  obtain ⟨e, he, ee⟩ := orbit_of_name (p := "Earth") (by decide)
  obtain ⟨f1, f2, f3⟩ := (orbits_far e he).2.2.2 ee
  obtain ⟨q1, q2, q3⟩ := tables_orbit he (c := earthTables) (by rw [ee]; exact earth_hasTables) ht
  rw [f1] at q1; rw [f2] at q2; rw [f3] at q3
  obtain ⟨p1, p2, p3⟩ := tables_orbit ho hc ht
  obtain ⟨g1, g2, g3, -⟩ := orbits_far o ho
  have g1 : (o.rmax : ℝ) ≤ 30.41 := by
    have := (Rat.cast_le (K := ℝ)).mpr g1
    push_cast at this; norm_num at this ⊢; linarith
  have g2 : (0 : ℝ) ≤ o.bmax := by exact_mod_cast g2
  have g3 : (o.bmax : ℝ) ≤ 0.205 := by
    have := (Rat.cast_le (K := ℝ)).mpr g3
    push_cast at this; norm_num at this ⊢; linarith
  have rmin0 : (0 : ℝ) < o.rmin := by exact_mod_cast (orbits_ordered.2.2.2.2 o ho).1
  obtain ⟨ap1, ap2⟩ := orbits_apart o ho hE
  have ap1 : (0.24 : ℝ) ≤ planeGap o := by
    have := (Rat.cast_le (K := ℝ)).mpr ap1
    push_cast at this; norm_num at this ⊢; linarith
  have ap2 : (o.rmax : ℝ) * o.bmax + 0.0001 ≤ 0.6 * planeGap o := by
    have := (Rat.cast_le (K := ℝ)).mpr ap2
    push_cast at this; norm_num at this ⊢; linarith
  push_cast at q1 q2 q3
  have plane : (planeGap o : ℝ) ^ 2 ≤ (sep c earthTables t).x ^ 2 + (sep c earthTables t).y ^ 2 := by
    obtain ⟨x1, y1, -⟩ := pos_plane c t
    obtain ⟨x2, y2, -⟩ := pos_plane earthTables t
    simp only [sep, V3.sub]
    rw [x1, y1, x2, y2]
    have cB : 1 - (o.bmax : ℝ) ^ 2 / 2 ≤ cos (poisson c.B (millennia t)) := by
      refine le_trans ?_ one_sub_sq_div_two_le_cos
      have : poisson c.B (millennia t) ^ 2 ≤ (o.bmax : ℝ) ^ 2 := sq_le_sq' (abs_le.mp p3).1 (abs_le.mp p3).2
      linarith
    have cB1 := cos_le_one (poisson c.B (millennia t))
    have cE : 0.99999 ≤ cos (poisson earthTables.B (millennia t)) := by
      refine le_trans ?_ one_sub_sq_div_two_le_cos
      have : poisson earthTables.B (millennia t) ^ 2 ≤ (0.00002 : ℝ) ^ 2 := sq_le_sq'
        (by norm_num at q3 ⊢; exact (abs_le.mp q3).1) (by norm_num at q3 ⊢; exact (abs_le.mp q3).2)
      norm_num at this ⊢; linarith
    have cE1 := cos_le_one (poisson earthTables.B (millennia t))
    have b2 : (o.bmax : ℝ) ^ 2 ≤ 0.205 ^ 2 := by gcongr
    generalize poisson c.R (millennia t) = r at *
    generalize poisson earthTables.R (millennia t) = r' at *
    generalize cos (poisson c.B (millennia t)) = k at *
    generalize cos (poisson earthTables.B (millennia t)) = k' at *
    generalize poisson c.L (millennia t) = l at *
    generalize poisson earthTables.L (millennia t) = l' at *
    have r0 : 0 < r := lt_of_lt_of_le rmin0 p1
    have k0 : 0 ≤ k := by norm_num at b2; linarith
    have m1 : r' * k' ≤ 1.0255 := by
      norm_num at q1 q2 cE ⊢; nlinarith
    have m2 : 0.9747 ≤ r' * k' := by
      norm_num at q1 q2 cE ⊢; nlinarith
    have m3 : (planeGap o : ℝ) ^ 2 ≤ (r * k - r' * k') ^ 2 := by
      unfold planeGap at ap1 ap2 ⊢
      split_ifs at ap1 ap2 ⊢ with h
      · have k1 : r * k ≤ o.rmax := (mul_le_of_le_one_right r0.le cB1).trans p2
        push_cast at ap1 ap2 ⊢
        have g0 : (0 : ℝ) ≤ 0.9747 - o.rmax := le_trans (by norm_num) ap1
        have g1 : (0.9747 : ℝ) - o.rmax ≤ r' * k' - r * k := by linarith
        rw [← neg_sq (r * k - r' * k'), neg_sub]
        gcongr
      · have k1 : o.rmin * (1 - o.bmax ^ 2 / 2) ≤ r * k :=
          mul_le_mul p1 cB (by norm_num at b2; linarith) r0.le
        push_cast at ap1 ap2 ⊢
        have g0 : (0 : ℝ) ≤ o.rmin * (1 - o.bmax ^ 2 / 2) - 1.0255 := le_trans (by norm_num) ap1
        have g1 : o.rmin * (1 - o.bmax ^ 2 / 2) - 1.0255 ≤ r * k - r' * k' := by linarith
        gcongr
    refine m3.trans ?_
    have pr : 0 ≤ r * k * (r' * k') := mul_nonneg (mul_nonneg r0.le k0) (by norm_num at m2; linarith)
    have c1 : cos l * cos l' + sin l * sin l' ≤ 1 := by rw [← cos_sub]; exact cos_le_one _
    have s1 := sin_sq_add_cos_sq l
    have s2 := sin_sq_add_cos_sq l'
    generalize r * k = A at *
    generalize r' * k' = A' at *
    have : (A * cos l - A' * cos l') ^ 2 + (A * sin l - A' * sin l') ^ 2 =
      A ^ 2 * (sin l ^ 2 + cos l ^ 2) + A' ^ 2 * (sin l' ^ 2 + cos l' ^ 2) -
        2 * (A * A') * (cos l * cos l' + sin l * sin l') := by ring
    rw [this, s1, s2, show (A - A') ^ 2 = A ^ 2 * 1 + A' ^ 2 * 1 - 2 * (A * A') * 1 by ring]
    have := mul_le_mul_of_nonneg_left c1 pr
    linarith
  refine ⟨plane, ?_⟩
  simp only [sep, V3.sub]
  rw [(pos_plane c t).2.2, (pos_plane earthTables t).2.2]
  refine (abs_sub _ _).trans ?_
  rw [abs_mul, abs_mul, abs_of_pos (lt_of_lt_of_le rmin0 p1),
    abs_of_pos (a := poisson earthTables.R (millennia t)) (by norm_num at q1; linarith)]
  have s1 : |sin (poisson c.B (millennia t))| ≤ o.bmax := Real.abs_sin_le_abs.trans p3
  have s2 := Real.abs_sin_le_abs.trans q3
  refine add_le_add (mul_le_mul p2 s1 (abs_nonneg _) (by linarith)) ?_
  refine (mul_le_mul q2 s2 (abs_nonneg _) (by norm_num)).trans (by norm_num)

/-- Bounds of the speed and of the acceleration of a planet, in astronomical units and days. -/
def pace (n : String) : ℚ × ℚ :=
  if n = "Mercury" then (0.0619, 0.0162) else if n = "Venus" then (0.0212, 0.00083)
  else if n = "Earth" then (0.0186, 0.00039) else if n = "Mars" then (0.0225, 0.00049) else (0.0097, 0.00003)

/-- Checks these bounds by integer arithmetic. -/
def paceOk (V A : ℚ) (o : Orbit) : Bool :=
  match vsopDict.lookup (o.name, "L"), vsopDict.lookup (o.name, "B"), vsopDict.lookup (o.name, "R") with
  | some cL, some cB, some cR =>
    let R1 : ℚ := pAcc1 6 cR
    let L1 : ℚ := pAcc1 6 cL
    let B1 : ℚ := pAcc1 6 cB
    decide (0 ≤ V ∧ 0 ≤ o.rmin ∧ R1 ^ 2 + o.rmax ^ 2 * (L1 ^ 2 + B1 ^ 2) ≤ (V * 365250 * 10 ^ 22) ^ 2 ∧
      pAcc2 6 cR * 10 ^ 11 + 2 * R1 * (L1 + B1) +
        o.rmax * ((pAcc2 6 cL + pAcc2 6 cB) * 10 ^ 11 + (L1 + B1) ^ 2) ≤ A * 365250 ^ 2 * 10 ^ 44)
  | _, _, _ => false

theorem paces_ok : ∀ o ∈ orbits6, paceOk (pace o.name).1 (pace o.name).2 o = true := by decide +kernel

/-- Smallest distance from the axis of the Earth. -/
def axisGap (o : Orbit) : ℚ := planeGap o * 0.9107 - (o.rmax * o.bmax + 0.0001) * 0.4131 - 0.00013

/-- Bound of the second difference of the right ascension of a planet, in radians. -/
def bend (n : String) : ℚ :=
  if n = "Mercury" then 0.0882 else if n = "Venus" then 0.0534 else if n = "Mars" then 0.0634
  else if n = "Jupiter" then 0.00038 else if n = "Saturn" then 0.00019 else if n = "Uranus" then 0.00008 else 0.00005

/-- Bound of the error of an interpolated right ascension of a planet, in radians. -/
def interpError (n : String) : ℚ :=
  if n = "Mercury" then 0.03 else if n = "Venus" then 0.02 else if n = "Mars" then 0.0237
  else if n = "Jupiter" then 0.000215 else if n = "Saturn" then 0.000115 else if n = "Uranus" then 0.000045 else 0.00003

/-- Bound of the distance of the right ascension from a uniform motion. -/
def chordTerm (o : Orbit) : ℚ :=
  ((((pace o.name).1 + 0.0186) * 1.0006 + 0.00026) / axisGap o) ^ 2 / 4.5 +
    1.47 * ((((pace o.name).2 + 0.00039) * 1.0012 / 8 + ((pace o.name).1 + 0.0186) * 0.00114 + 0.000252) / axisGap o)

theorem paces_small : ∀ o ∈ orbits6, o.name ≠ "Earth" → 0 < axisGap o ∧ 0.24 ≤ planeGap o ∧
    ((pace o.name).1 + 0.0186) * 1.0006 + 0.00026 ≤ 0.25 * axisGap o ∧
    (((pace o.name).1 + 0.0186) * 1.0006 + 0.00026) ^ 2 +
      (((pace o.name).2 + 0.00039) * 1.0012 + ((pace o.name).1 + 0.0186) * 0.00116 + 0.00052) * axisGap o ≤
      (bend o.name - bend o.name ^ 3 / 4) * axisGap o ^ 2 ∧ 0 < bend o.name ∧ bend o.name ≤ 0.095 := by decide +kernel

theorem paces_chord : ∀ o ∈ orbits6, o.name ≠ "Earth" →
    ((pace o.name).2 + 0.00039) * 1.0012 / 8 + ((pace o.name).1 + 0.0186) * 0.00114 + 0.000252 ≤ 0.2 * axisGap o ∧
    chordTerm o + bend o.name / 8 ≤ interpError o.name := by decide +kernel

/-- A component of the position of a planet, with its derivatives. -/
theorem pos_jet {o : Orbit} (ho : o ∈ orbits6) {V A : ℚ} (hV : paceOk V A o = true) {c : Tables}
    (hc : HasTables o.name c) {x y z : ℝ} (hu : x ^ 2 + y ^ 2 + z ^ 2 ≤ 1) :
    ∃ f f1 f2 : ℝ → ℝ, (∀ t, V3.dot ⟨x, y, z⟩ (c.pos t) = f (millennia t)) ∧ (∀ s, HasDerivAt f (f1 s) s) ∧
      (∀ s, HasDerivAt f1 (f2 s) s) ∧ (∀ s, |s| ≤ 6 → |f1 s| ≤ V * 365250) ∧
      ∀ s, |s| ≤ 6 → |f2 s| ≤ (A : ℝ) * 365250 ^ 2 := by
  have orb := fun {t : ℝ} (h : |millennia t| ≤ 6) => tables_orbit ho hc h
  obtain ⟨L, B, R⟩ := c
  obtain ⟨e1, e2, e3⟩ := hc
  simp only at e1 e2 e3 orb
  unfold paceOk at hV
  rw [e1, e2, e3] at hV
  simp only [decide_eq_true_eq] at hV
  obtain ⟨V0, r0, k1, k2⟩ := hV
  have V0 : (0 : ℝ) ≤ V := by exact_mod_cast V0
  have r0 : (0 : ℝ) ≤ o.rmin := by exact_mod_cast r0
  have k1 : ((pAcc1 6 R : ℝ)) ^ 2 + (o.rmax : ℝ) ^ 2 * ((pAcc1 6 L : ℝ) ^ 2 + (pAcc1 6 B : ℝ) ^ 2) ≤
      ((V : ℝ) * 365250 * 10 ^ 22) ^ 2 := by exact_mod_cast k1
  have k2 : (pAcc2 6 R : ℝ) * 10 ^ 11 + 2 * pAcc1 6 R * (pAcc1 6 L + pAcc1 6 B) +
        o.rmax * ((pAcc2 6 L + pAcc2 6 B) * 10 ^ 11 + ((pAcc1 6 L : ℝ) + pAcc1 6 B) ^ 2) ≤
      A * 365250 ^ 2 * 10 ^ 44 := by exact_mod_cast k2
  have val : ∀ t, V3.dot ⟨x, y, z⟩ (Tables.pos ⟨L, B, R⟩ t) =
      (fun s => pval R s * jP x y z (pval L s) (pval B s)) (millennia t) := by
    intro t
    simp only [V3.dot, Tables.pos, V3.scale, direction, poisson_eq_pval, jP]
    ring
  have rr : ∀ s, |s| ≤ 6 → |pval R s| ≤ o.rmax := by
    intro s hs
    have m : millennia (2451545 + 365250 * s) = s := by unfold millennia; ring
    have := orb (t := 2451545 + 365250 * s) (by rwa [m])
    rw [m, poisson_eq_pval] at this
    rw [abs_of_nonneg (r0.trans this.1)]
    exact this.2.1
  have d1 := fun s => jet_deriv x y z (pval_deriv R s) (pval_deriv L s) (pval_deriv B s)
  have d2 := fun s => jet_deriv2 x y z (pval_deriv R s) (pval_deriv L s) (pval_deriv B s) (pval1_deriv R s)
    (pval1_deriv L s) (pval1_deriv B s)
  have b1 : ∀ s : ℝ, |s| ≤ 6 → |pval1 R s * jP x y z (pval L s) (pval B s) + pval R s * (pval1 L s * jQ x y (pval L s) (pval B s) +
      pval1 B s * jS x y z (pval L s) (pval B s))| ≤ V * 365250 := by
    intro s hs
    have hs' : |s| ≤ (6 : ℕ) := by exact_mod_cast hs
    refine jet_speed (jet_unit hu _ _).1 (rr s hs) (pval1_abs R hs') (pval1_abs L hs') (pval1_abs B hs') (by positivity) ?_
    generalize (pAcc1 6 R : ℝ) = r1 at *
    generalize (pAcc1 6 L : ℝ) = l1 at *
    generalize (pAcc1 6 B : ℝ) = b1 at *
    have e : (r1 / 10 ^ 22) ^ 2 + (o.rmax : ℝ) ^ 2 * ((l1 / 10 ^ 22) ^ 2 + (b1 / 10 ^ 22) ^ 2) =
        (r1 ^ 2 + (o.rmax : ℝ) ^ 2 * (l1 ^ 2 + b1 ^ 2)) / 10 ^ 44 := by ring
    rw [e, div_le_iff₀ (by positivity)]
    refine k1.trans (le_of_eq (by ring))
  have one : ∀ {u : ℝ}, u ^ 2 ≤ 1 → |u| ≤ 1 := fun h => by rw [← sq_le_one_iff_abs_le_one]; exact h
  have b2 : ∀ s : ℝ, |s| ≤ 6 → |pval2 R s * jP x y z (pval L s) (pval B s) + 2 * pval1 R s * (pval1 L s * jQ x y (pval L s) (pval B s) +
      pval1 B s * jS x y z (pval L s) (pval B s)) + pval R s * (pval2 L s * jQ x y (pval L s) (pval B s) +
      pval2 B s * jS x y z (pval L s) (pval B s) + pval1 L s ^ 2 * jQL x y (pval L s) (pval B s) +
      2 * (pval1 L s * pval1 B s) * jQB x y (pval L s) (pval B s) - pval1 B s ^ 2 * jP x y z (pval L s) (pval B s))| ≤
      (A : ℝ) * 365250 ^ 2 := by
    intro s hs
    have hs' : |s| ≤ (6 : ℕ) := by exact_mod_cast hs
    obtain ⟨u1, u2, u3⟩ := jet_unit hu (pval L s) (pval B s)
    refine (jet_accel (one (by nlinarith)) (one (by nlinarith)) (one (by nlinarith)) (one u2) (one u3) (rr s hs) (pval1_abs R hs') (pval1_abs L hs')
      (pval1_abs B hs') (pval2_abs R hs') (pval2_abs L hs') (pval2_abs B hs')).trans ?_
    generalize (pAcc1 6 R : ℝ) = r1 at *
    generalize (pAcc1 6 L : ℝ) = l1 at *
    generalize (pAcc1 6 B : ℝ) = b1 at *
    generalize (pAcc2 6 R : ℝ) = r2 at *
    generalize (pAcc2 6 L : ℝ) = l2 at *
    generalize (pAcc2 6 B : ℝ) = b2 at *
    have e : r2 / 10 ^ 33 + 2 * (r1 / 10 ^ 22) * (l1 / 10 ^ 22 + b1 / 10 ^ 22) +
        (o.rmax : ℝ) * (l2 / 10 ^ 33 + b2 / 10 ^ 33 + (l1 / 10 ^ 22 + b1 / 10 ^ 22) ^ 2) =
        (r2 * 10 ^ 11 + 2 * r1 * (l1 + b1) + o.rmax * ((l2 + b2) * 10 ^ 11 + (l1 + b1) ^ 2)) / 10 ^ 44 := by ring
    rw [e, div_le_iff₀ (by positivity)]
    exact k2
  exact ⟨_, _, _, val, d1, d2, b1, b2⟩

/-- Differences of a component of the position of a planet. -/
theorem pos_second {o : Orbit} (ho : o ∈ orbits6) {V A : ℚ} (hV : paceOk V A o = true) {c : Tables}
    (hc : HasTables o.name c) {x y z : ℝ} (hu : x ^ 2 + y ^ 2 + z ^ 2 ≤ 1) {t0 t1 t2 : ℝ} (h0 : |millennia t0| ≤ 6)
    (h1 : |millennia t1| ≤ 6) (h2 : |millennia t2| ≤ 6) (h01 : t0 ≤ t1) (h12 : t1 ≤ t2) :
    V3.dot ⟨x, y, z⟩ (c.pos t1) - V3.dot ⟨x, y, z⟩ (c.pos t0) ≤ V * (t1 - t0) ∧
    V3.dot ⟨x, y, z⟩ (c.pos t2) - V3.dot ⟨x, y, z⟩ (c.pos t1) ≤ V * (t2 - t1) ∧
    V3.dot ⟨x, y, z⟩ (c.pos t2) - 2 * V3.dot ⟨x, y, z⟩ (c.pos t1) + V3.dot ⟨x, y, z⟩ (c.pos t0) ≤
      A / 2 * ((t2 - t1) ^ 2 + (t1 - t0) ^ 2) + V * |(t2 - t1) - (t1 - t0)| := by
  obtain ⟨f, f1, f2, val, d1, d2, b1, b2⟩ := pos_jet ho hV hc hu
  have mono : ∀ {s t : ℝ}, s ≤ t → millennia s ≤ millennia t := fun h => by unfold millennia; linarith
  obtain ⟨q1, q2, q3⟩ := second_diff d1 d2 b1 b2 h0 h1 h2 (mono h01) (mono h12)
  rw [val, val, val]
  have w : ∀ s t, millennia s - millennia t = (s - t) / 365250 := millennia_sub
  refine ⟨q1.trans (le_of_eq ?_), q2.trans (le_of_eq ?_), q3.trans (le_of_eq ?_)⟩
  · rw [w]; ring
  · rw [w]; ring
  · rw [w, w, show (t2 - t1) / 365250 - (t1 - t0) / 365250 = ((t2 - t1) - (t1 - t0)) / 365250 by ring, abs_div,
      abs_of_pos (by norm_num : (0 : ℝ) < 365250)]
    ring

/-- Distance of a component of the position from its chord. -/
theorem pos_chord {o : Orbit} (ho : o ∈ orbits6) {V A : ℚ} (hV : paceOk V A o = true) {c : Tables}
    (hc : HasTables o.name c) {x y z : ℝ} (hu : x ^ 2 + y ^ 2 + z ^ 2 ≤ 1) {t0 t1 t2 : ℝ} (h0 : |millennia t0| ≤ 6)
    (h1 : |millennia t1| ≤ 6) (h2 : |millennia t2| ≤ 6) (h01 : t0 ≤ t1) (h12 : t1 ≤ t2) :
    (t1 - t0) * V3.dot ⟨x, y, z⟩ (c.pos t2) + (t2 - t1) * V3.dot ⟨x, y, z⟩ (c.pos t0) -
      (t2 - t0) * V3.dot ⟨x, y, z⟩ (c.pos t1) ≤ A / 2 * ((t2 - t1) * (t1 - t0) * (t2 - t0)) := by
  obtain ⟨f, f1, f2, val, d1, d2, -, b2⟩ := pos_jet ho hV hc hu
  have mono : ∀ {s t : ℝ}, s ≤ t → millennia s ≤ millennia t := fun h => by unfold millennia; linarith
  have q := chord_diff (fun s _ => d1 s) (fun s _ => d2 s) b2 h0 h1 h2 (mono h01) (mono h12)
  rw [val, val, val]
  rw [millennia_sub, millennia_sub, millennia_sub] at q
  generalize f (millennia t0) = u0 at *
  generalize f (millennia t1) = u1 at *
  generalize f (millennia t2) = u2 at *
  have := mul_le_mul_of_nonneg_left q (by norm_num : (0 : ℝ) ≤ 365250)
  linarith

theorem norm_le_of_dot {v : V3} {k : ℝ} (hk : 0 ≤ k)
    (h : ∀ x y z : ℝ, x ^ 2 + y ^ 2 + z ^ 2 ≤ 1 → V3.dot ⟨x, y, z⟩ v ≤ k) : v.norm ≤ k := by
  rcases (norm_nonneg' v).eq_or_lt with e | e
  · rw [← e]; exact hk
  · have n2 : v.norm ^ 2 = v.x ^ 2 + v.y ^ 2 + v.z ^ 2 := Real.sq_sqrt (by positivity)
    have := h (v.x / v.norm) (v.y / v.norm) (v.z / v.norm) (by
      rw [div_pow, div_pow, div_pow, ← add_div, ← add_div, ← n2, div_self (by positivity)])
    refine le_trans (le_of_eq ?_) this
    unfold V3.dot
    rw [show v.x / v.norm * v.x + v.y / v.norm * v.y + v.z / v.norm * v.z = (v.x ^ 2 + v.y ^ 2 + v.z ^ 2) / v.norm by ring,
      ← n2]
    field_simp

/-- Differences of the vector from the Earth to a planet. -/
theorem sep_second {o : Orbit} (ho : o ∈ orbits6) {c : Tables} (hc : HasTables o.name c) {t0 t1 t2 : ℝ}
    (h0 : |millennia t0| ≤ 6) (h1 : |millennia t1| ≤ 6) (h2 : |millennia t2| ≤ 6) (h01 : t0 ≤ t1) (h12 : t1 ≤ t2) :
    ((sep c earthTables t1).sub (sep c earthTables t0)).norm ≤ ((pace o.name).1 + 0.0186) * (t1 - t0) ∧
    ((sep c earthTables t2).sub (sep c earthTables t1)).norm ≤ ((pace o.name).1 + 0.0186) * (t2 - t1) ∧
    (((sep c earthTables t2).sub (sep c earthTables t1)).sub ((sep c earthTables t1).sub (sep c earthTables t0))).norm ≤
      ((pace o.name).2 + 0.00039) / 2 * ((t2 - t1) ^ 2 + (t1 - t0) ^ 2) +
        ((pace o.name).1 + 0.0186) * |(t2 - t1) - (t1 - t0)| := by
  obtain ⟨e, he, ee⟩ := orbit_of_name (p := "Earth") (by decide)
  have pe : pace e.name = (0.0186, 0.00039) := by rw [ee]; decide +kernel
  have key := fun {x y z : ℝ} (hu : x ^ 2 + y ^ 2 + z ^ 2 ≤ 1) => pos_second ho (paces_ok o ho) hc hu h0 h1 h2 h01 h12
  have keyE := fun {x y z : ℝ} (hu : x ^ 2 + y ^ 2 + z ^ 2 ≤ 1) => pos_second he (paces_ok e he) (c := earthTables)
    (by rw [ee]; exact earth_hasTables) (x := -x) (y := -y) (z := -z) (by rw [neg_sq, neg_sq, neg_sq]; exact hu) h0 h1 h2 h01 h12
  rw [pe] at keyE
  have pos : (0 : ℝ) ≤ (pace o.name).1 ∧ (0 : ℝ) ≤ (pace o.name).2 := by
    have : 0 ≤ (pace o.name).1 ∧ 0 ≤ (pace o.name).2 := by
      unfold pace; split_ifs <;> norm_num
    exact_mod_cast this
  obtain ⟨pV, pA⟩ := pos
  generalize ((pace o.name).1 : ℝ) = V at *
  generalize ((pace o.name).2 : ℝ) = A at *
  push_cast at keyE
  refine ⟨norm_le_of_dot (mul_nonneg (by positivity) (by linarith)) fun x y z hu => ?_, norm_le_of_dot (mul_nonneg (by positivity) (by linarith)) fun x y z hu => ?_,
    norm_le_of_dot (by positivity) fun x y z hu => ?_⟩
  · have a := (key hu).1
    have b := (keyE hu).1
    simp only [V3.dot, sep, V3.sub] at a b ⊢
    norm_num at b ⊢
    linarith
  · have a := (key hu).2.1
    have b := (keyE hu).2.1
    simp only [V3.dot, sep, V3.sub] at a b ⊢
    norm_num at b ⊢
    linarith
  · have a := (key hu).2.2
    have b := (keyE hu).2.2
    simp only [V3.dot, sep, V3.sub] at a b ⊢
    norm_num at b ⊢
    linarith

/-- Distance of the vector from the Earth to a planet from its chord. -/
theorem sep_chord {o : Orbit} (ho : o ∈ orbits6) {c : Tables} (hc : HasTables o.name c) {t0 t1 t2 : ℝ}
    (h0 : |millennia t0| ≤ 6) (h1 : |millennia t1| ≤ 6) (h2 : |millennia t2| ≤ 6) (h01 : t0 ≤ t1) (h12 : t1 ≤ t2) :
    ((((sep c earthTables t2).sub (sep c earthTables t1)).scale (t1 - t0)).sub
      (((sep c earthTables t1).sub (sep c earthTables t0)).scale (t2 - t1))).norm ≤
      ((pace o.name).2 + 0.00039) / 2 * ((t2 - t1) * (t1 - t0) * (t2 - t0)) := by
  obtain ⟨e, he, ee⟩ := orbit_of_name (p := "Earth") (by decide)
  have pe : pace e.name = (0.0186, 0.00039) := by rw [ee]; decide +kernel
  have key := fun {x y z : ℝ} (hu : x ^ 2 + y ^ 2 + z ^ 2 ≤ 1) => pos_chord ho (paces_ok o ho) hc hu h0 h1 h2 h01 h12
  have keyE := fun {x y z : ℝ} (hu : x ^ 2 + y ^ 2 + z ^ 2 ≤ 1) => pos_chord he (paces_ok e he) (c := earthTables)
    (by rw [ee]; exact earth_hasTables) (x := -x) (y := -y) (z := -z) (by rw [neg_sq, neg_sq, neg_sq]; exact hu) h0 h1 h2 h01 h12
  rw [pe] at keyE
  have pA : (0 : ℝ) ≤ (pace o.name).2 := by
    have : 0 ≤ (pace o.name).2 := by
      unfold pace; split_ifs <;> norm_num
    exact_mod_cast this
  generalize ((pace o.name).2 : ℝ) = A at *
  push_cast at keyE
  have s1 := sub_nonneg.mpr h01
  have s2 := sub_nonneg.mpr h12
  have s3 := sub_nonneg.mpr (h01.trans h12)
  refine norm_le_of_dot (by positivity) fun x y z hu => ?_
  have a := key hu
  have b := keyE hu
  simp only [V3.dot, sep, V3.sub, V3.scale] at a b ⊢
  norm_num at b ⊢
  linarith

end Verif

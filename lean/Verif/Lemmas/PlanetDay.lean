import Verif.Lemmas.ArgChord
import Verif.Lemmas.PlanetPace
import Verif.Props.Transit

/-!
# Lemmas: the right ascension of a planet on three days
-/

namespace Verif
open Real

noncomputable section

/-- Projection, onto the plane of the equator, of a vector with ecliptic components. -/
def axisPlane (e psi : ℝ) (v : V3) : ℂ :=
  ⟨v.x * cos psi - v.y * sin psi, (v.x * sin psi + v.y * cos psi) * cos e - v.z * sin e⟩

theorem norm_sq_complex (w : ℂ) : ‖w‖ ^ 2 = w.re ^ 2 + w.im ^ 2 := by
  rw [← Complex.normSq_eq_norm_sq, Complex.normSq_apply]; ring

theorem norm_sq_V3 (v : V3) : v.norm ^ 2 = v.x ^ 2 + v.y ^ 2 + v.z ^ 2 := Real.sq_sqrt (by positivity)

theorem axisPlane_norm (e psi : ℝ) (v : V3) : ‖axisPlane e psi v‖ ≤ v.norm := by
  refine (sq_le_sq₀ (norm_nonneg _) (norm_nonneg' v)).mp ?_
  rw [norm_sq_complex, norm_sq_V3]
  simp only [axisPlane]
  have a := sin_sq_add_cos_sq e
  have b := sin_sq_add_cos_sq psi
  generalize cos e = c at *
  generalize sin e = s at *
  generalize cos psi = c' at *
  generalize sin psi = s' at *
  have i : (v.x * c' - v.y * s') ^ 2 + ((v.x * s' + v.y * c') * c - v.z * s) ^ 2 +
      ((v.x * s' + v.y * c') * s + v.z * c) ^ 2 = (v.x * c' - v.y * s') ^ 2 +
      ((v.x * s' + v.y * c') ^ 2 + v.z ^ 2) * (s ^ 2 + c ^ 2) := by ring
  have j : (v.x * c' - v.y * s') ^ 2 + (v.x * s' + v.y * c') ^ 2 = (v.x ^ 2 + v.y ^ 2) * (s' ^ 2 + c' ^ 2) := by ring
  rw [a] at i; rw [b] at j
  nlinarith [sq_nonneg ((v.x * s' + v.y * c') * s + v.z * c)]

theorem axisPlane_sub (e psi : ℝ) (v w : V3) : axisPlane e psi (v.sub w) = axisPlane e psi v - axisPlane e psi w := by
  apply Complex.ext <;> simp only [axisPlane, V3.sub, Complex.sub_re, Complex.sub_im] <;> ring

theorem axisPlane_lower {e psi g h : ℝ} {v : V3} (g0 : 0 ≤ g) (hg : g ^ 2 ≤ v.x ^ 2 + v.y ^ 2) (hh : |v.z| ≤ h)
    (hc : 0.9107 ≤ cos e) (hs : |sin e| ≤ 0.4131) : g * 0.9107 - h * 0.4131 ≤ ‖axisPlane e psi v‖ := by
  set A : ℂ := ⟨v.x * cos psi - v.y * sin psi, (v.x * sin psi + v.y * cos psi) * cos e⟩ with hA
  set B : ℂ := ⟨0, v.z * sin e⟩ with hB
  have e1 : axisPlane e psi v = A - B := by
    apply Complex.ext <;> simp [axisPlane, hA, hB]
  have nB : ‖B‖ ≤ h * 0.4131 := by
    rw [show B = ((v.z * sin e : ℝ) : ℂ) * Complex.I by apply Complex.ext <;> simp only [hB, Complex.mul_re, Complex.mul_im, Complex.ofReal_re, Complex.ofReal_im, Complex.I_re, Complex.I_im] <;> ring, norm_mul, Complex.norm_I, mul_one,
      Complex.norm_real, Real.norm_eq_abs, abs_mul]
    exact mul_le_mul hh hs (abs_nonneg _) ((abs_nonneg _).trans hh)
  have nA : g * 0.9107 ≤ ‖A‖ := by
    refine (sq_le_sq₀ (by positivity) (norm_nonneg _)).mp ?_
    rw [norm_sq_complex]
    simp only [hA]
    have b := sin_sq_add_cos_sq psi
    have c1 := cos_le_one e
    generalize cos e = c at *
    generalize cos psi = c' at *
    generalize sin psi = s' at *
    have j : (v.x * c' - v.y * s') ^ 2 + (v.x * s' + v.y * c') ^ 2 = (v.x ^ 2 + v.y ^ 2) * (s' ^ 2 + c' ^ 2) := by ring
    rw [b, mul_one] at j
    norm_num at hc
    have c2 : c ^ 2 ≤ 1 := by nlinarith
    have c3 : (0.9107 : ℝ) ^ 2 ≤ c ^ 2 := by norm_num; nlinarith
    have m1 : (v.x * c' - v.y * s') ^ 2 * c ^ 2 ≤ (v.x * c' - v.y * s') ^ 2 := mul_le_of_le_one_right (sq_nonneg _) c2
    have m2 : g ^ 2 * 0.9107 ^ 2 ≤ (v.x ^ 2 + v.y ^ 2) * c ^ 2 :=
      mul_le_mul hg c3 (by norm_num) (by positivity)
    rw [← j] at m2
    rw [mul_pow, mul_pow]
    linarith
  rw [e1]
  have := norm_sub_norm_le A B
  linarith

/-- The complex number for a distance, right ascension and declination. -/
def ofPlace (n ra dec : ℝ) : ℂ := (n * cos dec : ℝ) * (Complex.cos ra + Complex.sin ra * Complex.I)

theorem ofPlace_re (n ra dec : ℝ) : (ofPlace n ra dec).re = n * cos dec * cos ra ∧
    (ofPlace n ra dec).im = n * cos dec * sin ra := by
  unfold ofPlace
  rw [← Complex.ofReal_cos, ← Complex.ofReal_sin]
  simp [Complex.cos_ofReal_re, Complex.sin_ofReal_re]

theorem ofPlace_near {n ra dec e psi l b k : ℝ} (n0 : 0 ≤ n) {s : V3} (hs : s = (direction l b).scale n)
    (h : ((direction ra dec).sub (turnX e (direction (l + psi) b))).norm ≤ k) :
    ‖ofPlace n ra dec - axisPlane e psi s‖ ≤ n * k := by
  have k0 : 0 ≤ k := (norm_nonneg' _).trans h
  refine (sq_le_sq₀ (norm_nonneg _) (by positivity)).mp ?_
  have h2 : ((direction ra dec).sub (turnX e (direction (l + psi) b))).norm ^ 2 ≤ k ^ 2 :=
    pow_le_pow_left₀ (norm_nonneg' _) h 2
  rw [norm_sq_V3] at h2
  rw [norm_sq_complex, Complex.sub_re, Complex.sub_im, (ofPlace_re _ _ _).1, (ofPlace_re _ _ _).2, hs]
  simp only [axisPlane, V3.scale, direction, turnX, V3.sub] at h2 ⊢
  rw [cos_add, sin_add] at h2
  have := mul_le_mul_of_nonneg_left h2 (sq_nonneg n)
  refine le_trans ?_ (this.trans (le_of_eq (by ring)))
  have z := mul_nonneg (sq_nonneg n) (sq_nonneg (sin dec - (cos b * (sin l * cos psi + cos l * sin psi) * sin e + sin b * cos e)))
  nlinarith

/-- The place computed for `n` days after `jd`, where the light was emitted at `x`: it is, nearly, the direction of the vector
from the Earth to the planet at `x`, in the equator of `jd`. -/
structure SeenAt (o : Orbit) (c : Tables) (jd n x y dec : ℝ) : Prop where
  emit : x = jd + n - lightDay * (sep c earthTables x).norm
  era : |millennia x| ≤ 6
  place : place (jd + n) o.name = .ok (y, dec, standardRstAltitude)
  ra0 : 0 ≤ y
  ra1 : y < 2 * π
  cosDec : 0 ≤ cos dec
  near : ‖ofPlace (sep c earthTables x).norm y dec - axisPlane (trueObliquity (jd + 0)) (nutationInLongitude (jd + 0))
    (sep c earthTables x)‖ ≤ 0.000126

/-- A planet at a time within a day from `jd`: the place computed, and the vector from the Earth to the planet. -/
theorem planet_at {o : Orbit} (ho : o ∈ orbits6) (hE : o.name ≠ "Earth") {c : Tables} (hc : HasTables o.name c) {jd n : ℝ}
    (h : |millennia jd| ≤ 5.89) (hn : |n| ≤ 1) : ∃ x y dec, SeenAt o c jd n x y dec := by
  have hk : o.name ∈ knownPlanets := by
    rw [← orbits_ordered.1.2]; exact List.mem_map.mpr ⟨o, ho, rfl⟩
  have h5 : |millennia jd| ≤ 5.9 := h.trans (by norm_num)
  have hj : |millennia (jd + n)| ≤ 5.9 := by
    have e : millennia (jd + n) = millennia jd + n / 365250 := by unfold millennia; ring
    have : |n / 365250| ≤ 0.00001 := by
      rw [abs_div, abs_of_pos (by norm_num : (0 : ℝ) < 365250), div_le_iff₀ (by norm_num)]
      norm_num; linarith
    rw [e]
    refine (abs_add_le _ _).trans ?_
    norm_num at h this ⊢; linarith
  obtain ⟨x, l, b, ra, dec, ex, ux, hs, hg, r1, r2, r3, r4, hd⟩ := geocentric_planet_accurate hk hE hc hj
    (nutationInLongitude (jd + n)) (trueObliquity (jd + n)) (1 / 86400) (by norm_num) (by norm_num)
  obtain ⟨x', ex', w1, w2, -⟩ := emitted_exists hk hE hc hj
  have m6 : |millennia x'| ≤ 6 := window_era hj ⟨w1, w2⟩
  obtain rfl := ux x' m6 ex'
  have nM : o.name ≠ "Moon" := by rintro e; rw [e] at hk; revert hk; decide
  have nS : o.name ≠ "Sun" := by rintro e; rw [e] at hk; revert hk; decide
  refine ⟨x', ra, dec, ex', m6, ?_, r1, r2, cos_nonneg_of_neg_pi_div_two_le_of_le r3 r4, ?_⟩
  · unfold Verif.place
    rw [nutationPair_eq]
    simp only [if_neg nM, if_neg nS, hg, Except.map]
  have far := (sep_bounds hk hE hc m6).2.2
  have t1 := norm_triangle (direction ra dec) (turnX (trueObliquity (jd + n)) (direction (l + nutationInLongitude (jd + n)) b))
    (turnX (trueObliquity (jd + 0)) (direction (l + nutationInLongitude (jd + n)) b))
  have t2 := norm_triangle (direction ra dec)
    (turnX (trueObliquity (jd + 0)) (direction (l + nutationInLongitude (jd + n)) b))
    (turnX (trueObliquity (jd + 0)) (direction (l + nutationInLongitude (jd + 0)) b))
  have a1 := turnX_lip (trueObliquity (jd + n)) (trueObliquity (jd + 0)) (l + nutationInLongitude (jd + n)) b
  have a2 := direction_lip (l + nutationInLongitude (jd + n)) b (l + nutationInLongitude (jd + 0)) b
  rw [turnX_isometry] at t2
  have d1 := obliquity_day h5 hn
  have d2 := (nutation_day h5 hn).1
  rw [sub_self, abs_zero, add_sub_add_left_eq_sub] at a2
  have as : arcsec 0.268 + arcsec 0.11 ≤ 1.84e-6 := by
    unfold arcsec
    have := Real.pi_lt_d4
    norm_num at this ⊢; linarith
  have tot : ((direction ra dec).sub (turnX (trueObliquity (jd + 0)) (direction (l + nutationInLongitude (jd + 0)) b))).norm ≤
      4e-6 := by
    generalize arcsec 0.268 = p at *
    generalize arcsec 0.11 = q at *
    have k : (1.56e-6 : ℝ) + 1.84e-6 ≤ 4e-6 := by norm_num
    linarith
  refine (ofPlace_near (norm_nonneg' _) hs tot).trans ?_
  refine (mul_le_mul_of_nonneg_right far (by norm_num)).trans (by norm_num)

/-- The times at which the light seen at two times was emitted are about as far apart as these. -/
theorem emitted_step {o : Orbit} (ho : o ∈ orbits6) {c : Tables} (hc : HasTables o.name c) {jd n n' x x' y y' d d' : ℝ}
    (S : SeenAt o c jd n x y d) (S' : SeenAt o c jd n' x' y' d') : |x' - x - (n' - n)| ≤ 0.00056 * |n' - n| := by
  have hp : o.name ∈ knownPlanets := by
    rw [← orbits_ordered.1.2]; exact List.mem_map.mpr ⟨o, ho, rfl⟩
  have l := sep_lip hp hc S'.era S.era
  have a := (abs_norm_sub (sep c earthTables x') (sep c earthTables x)).trans l
  have d : x' - x - (n' - n) = -(lightDay * ((sep c earthTables x').norm - (sep c earthTables x).norm)) := by
    linarith [S.emit, S'.emit]
  have b : |x' - x - (n' - n)| ≤ 0.00055908 * |x' - x| := by
    rw [d, abs_neg, abs_mul]
    refine (mul_le_mul_of_nonneg_left a (abs_nonneg _)).trans ?_
    rw [← mul_assoc]
    refine mul_le_mul_of_nonneg_right ?_ (abs_nonneg _)
    unfold lightDay
    norm_num [abs_of_pos]
  have t : |x' - x| ≤ |x' - x - (n' - n)| + |n' - n| := by
    have := abs_add_le (x' - x - (n' - n)) (n' - n)
    rwa [sub_add_cancel] at this
  have := abs_nonneg (n' - n)
  norm_num at b ⊢
  linarith

/-- Congruence of a right ascension and an argument. -/
theorem ofPlace_arg {n ra dec : ℝ} (h : ofPlace n ra dec ≠ 0) (hn : 0 ≤ n) (hd : 0 ≤ cos dec) :
    ((ofPlace n ra dec).arg : Real.Angle) = (ra : Real.Angle) := by
  have p : 0 < n * cos dec := by
    rcases (mul_nonneg hn hd).eq_or_lt with e | e
    · exfalso; apply h; unfold ofPlace; rw [← e]; simp
    · exact e
  have := Complex.arg_mul_cos_add_sin_mul_I_coe_angle p (ra : Real.Angle)
  rw [Real.Angle.cos_coe, Real.Angle.sin_coe] at this
  unfold ofPlace
  rw [← Complex.ofReal_cos, ← Complex.ofReal_sin]
  exact this

/-- Points near points which move slowly. -/
theorem near_args_slow {V A r C x0 x1 x2 : ℝ} {M0 M1 M2 w0 w1 w2 : ℂ} (pV : 0 ≤ V) (pA : 0 ≤ A) (hr : 0 < r)
    (s0 : 0.99944 ≤ x1 - x0) (s0' : x1 - x0 ≤ 1.00056) (s1 : 0.99944 ≤ x2 - x1) (s1' : x2 - x1 ≤ 1.00056)
    (n0 : ‖w0 - M0‖ ≤ 0.000126) (n1 : ‖w1 - M1‖ ≤ 0.000126) (n2 : ‖w2 - M2‖ ≤ 0.000126)
    (z1 : ‖M1 - M0‖ ≤ (V + 0.0186) * (x1 - x0)) (z2 : ‖M2 - M1‖ ≤ (V + 0.0186) * (x2 - x1))
    (z3 : ‖(M2 - M1) - (M1 - M0)‖ ≤
      (A + 0.00039) / 2 * ((x2 - x1) ^ 2 + (x1 - x0) ^ 2) + (V + 0.0186) * |(x2 - x1) - (x1 - x0)|)
    (lo : r + 0.00013 ≤ ‖M1‖) (k2 : (V + 0.0186) * 1.0006 + 0.00026 ≤ 0.25 * r)
    (k3 : ((V + 0.0186) * 1.0006 + 0.00026) ^ 2 +
      ((A + 0.00039) * 1.0012 + (V + 0.0186) * 0.00116 + 0.00052) * r ≤ (C - C ^ 3 / 4) * r ^ 2)
    (C0 : 0 < C) (C1 : C ≤ 1) :
    |(w2 / w1).arg| ≤ 0.26 ∧ |(w0 / w1).arg| ≤ 0.26 ∧ |(w2 / w1).arg + (w0 / w1).arg| ≤ C ∧
      w0 ≠ 0 ∧ w1 ≠ 0 ∧ w2 ≠ 0 := by
  norm_num at s0 s0' s1 s1'
  have sq : ∀ {u : ℝ}, 9993 / 10000 ≤ u → u ≤ 12507 / 12500 → u ^ 2 ≤ 1.0012 := by
    intro u h h'; norm_num at h' ⊢; nlinarith
  have A1 : ‖w2 - w1‖ ≤ (V + 0.0186) * 1.0006 + 0.00026 := by
    have e : w2 - w1 = (w2 - M2) - (w1 - M1) + (M2 - M1) := by ring
    rw [e]
    have t := norm_add_le ((w2 - M2) - (w1 - M1)) (M2 - M1)
    have t' := norm_sub_le (w2 - M2) (w1 - M1)
    have m : (V + 0.0186) * (x2 - x1) ≤ (V + 0.0186) * 1.0006 :=
      mul_le_mul_of_nonneg_left (by norm_num; linarith) (by positivity)
    norm_num at n1 n2 t t' m z2 ⊢
    linarith
  have A0 : ‖w1 - w0‖ ≤ (V + 0.0186) * 1.0006 + 0.00026 := by
    have e : w1 - w0 = (w1 - M1) - (w0 - M0) + (M1 - M0) := by ring
    rw [e]
    have t := norm_add_le ((w1 - M1) - (w0 - M0)) (M1 - M0)
    have t' := norm_sub_le (w1 - M1) (w0 - M0)
    have m : (V + 0.0186) * (x1 - x0) ≤ (V + 0.0186) * 1.0006 :=
      mul_le_mul_of_nonneg_left (by norm_num; linarith) (by positivity)
    norm_num at n1 n0 t t' m z1 ⊢
    linarith
  have AE : ‖w2 - 2 * w1 + w0‖ ≤
      (A + 0.00039) * 1.0012 + (V + 0.0186) * 0.00116 + 0.00052 := by
    have e : w2 - 2 * w1 + w0 = ((M2 - M1) - (M1 - M0)) +
        ((w2 - M2) - (w1 - M1)) - ((w1 - M1) - (w0 - M0)) := by ring
    rw [e]
    have t1 := norm_sub_le (((M2 - M1) - (M1 - M0)) + ((w2 - M2) - (w1 - M1)))
      ((w1 - M1) - (w0 - M0))
    have t2 := norm_add_le ((M2 - M1) - (M1 - M0)) ((w2 - M2) - (w1 - M1))
    have t3 := norm_sub_le (w2 - M2) (w1 - M1)
    have t4 := norm_sub_le (w1 - M1) (w0 - M0)
    have m1 : (A + 0.00039) / 2 * ((x2 - x1) ^ 2 + (x1 - x0) ^ 2) ≤ (A + 0.00039) / 2 * (1.0012 + 1.0012) :=
      mul_le_mul_of_nonneg_left (add_le_add (sq (by linarith) (by norm_num; linarith)) (sq (by linarith) (by norm_num; linarith)))
        (by positivity)
    have m2 : (V + 0.0186) * |(x2 - x1) - (x1 - x0)| ≤ (V + 0.0186) * 0.00116 :=
      mul_le_mul_of_nonneg_left (by rw [abs_le]; norm_num; constructor <;> linarith) (by positivity)
    norm_num at n0 n1 n2 t1 t2 t3 t4 m1 m2 z3 ⊢
    linarith
  have low : r ≤ ‖w1‖ := by
    have t := norm_sub_norm_le M1 (M1 - w1)
    rw [sub_sub_cancel, norm_sub_rev M1] at t
    norm_num at n1 t lo ⊢
    linarith
  exact args_slow hr low A1 A0 AE k2 k3 C0 C1

/-- Points near points which move nearly uniformly. -/
theorem near_args_chord {V A r x0 x xe e m : ℝ} {M0 M Me w0 w we : ℂ} (pV : 0 ≤ V) (pA : 0 ≤ A) (hr : 0 < r)
    (he : e = 1 ∨ e = -1) (m0 : 0 ≤ m) (m1 : m ≤ 1) (s1 : |x - x0 - e * m| ≤ 0.00056 * m)
    (s2 : |xe - x - e * (1 - m)| ≤ 0.00056 * (1 - m))
    (n0 : ‖w0 - M0‖ ≤ 0.000126) (n1 : ‖w - M‖ ≤ 0.000126) (n2 : ‖we - Me‖ ≤ 0.000126)
    (z1 : ‖Me - M0‖ ≤ (V + 0.0186) * |xe - x0|)
    (z3 : ‖(xe - x0 : ℝ) * (M - M0) - (x - x0 : ℝ) * (Me - M0)‖ ≤
      (A + 0.00039) / 2 * (|xe - x| * |x - x0| * |xe - x0|))
    (lo : r + 0.00013 ≤ ‖M0‖) (k2 : (V + 0.0186) * 1.0006 + 0.00026 ≤ 0.25 * r)
    (k3 : (A + 0.00039) * 1.0012 / 8 + (V + 0.0186) * 0.00114 + 0.000252 ≤ 0.2 * r) :
    |(w / w0).arg - m * (we / w0).arg| ≤ (((V + 0.0186) * 1.0006 + 0.00026) / r) ^ 2 / 4.5 +
      1.47 * (((A + 0.00039) * 1.0012 / 8 + (V + 0.0186) * 0.00114 + 0.000252) / r) ∧ w ≠ 0 := by
  have low : r ≤ ‖w0‖ := by
    have t := norm_sub_norm_le M0 (M0 - w0)
    rw [sub_sub_cancel, norm_sub_rev M0] at t
    norm_num at n0 t lo ⊢
    linarith
  have s3 : |xe - x0 - e| ≤ 0.00056 := by
    have := abs_add_le (xe - x - e * (1 - m)) (x - x0 - e * m)
    rw [show xe - x - e * (1 - m) + (x - x0 - e * m) = xe - x0 - e by ring] at this
    linarith
  have h1 : 0.99944 ≤ |xe - x0| ∧ |xe - x0| ≤ 1.00056 ∧ |xe - x| + |x - x0| = |xe - x0| := by
    rw [abs_le] at s1 s2 s3
    norm_num at s1 s2 s3 ⊢
    rcases he with rfl | rfl
    · rw [abs_of_nonneg (by linarith : 0 ≤ xe - x0), abs_of_nonneg (by linarith : 0 ≤ xe - x),
        abs_of_nonneg (by linarith : 0 ≤ x - x0)]
      refine ⟨by linarith, by linarith, by ring⟩
    · rw [abs_of_nonpos (by linarith : xe - x0 ≤ 0), abs_of_nonpos (by linarith : xe - x ≤ 0),
        abs_of_nonpos (by linarith : x - x0 ≤ 0)]
      refine ⟨by linarith, by linarith, by ring⟩
  obtain ⟨h1, h2, h3⟩ := h1
  have A1 : ‖we - w0‖ ≤ (V + 0.0186) * 1.0006 + 0.00026 := by
    have e : we - w0 = (we - Me) - (w0 - M0) + (Me - M0) := by ring
    rw [e]
    have t := norm_add_le ((we - Me) - (w0 - M0)) (Me - M0)
    have t' := norm_sub_le (we - Me) (w0 - M0)
    have m' : (V + 0.0186) * |xe - x0| ≤ (V + 0.0186) * 1.0006 :=
      mul_le_mul_of_nonneg_left (h2.trans (by norm_num)) (by positivity)
    norm_num at n0 n2 t t' m' z1 ⊢
    linarith
  have X : ‖M - M0 - m * (Me - M0)‖ ≤ (A + 0.00039) * 1.0012 / 8 + (V + 0.0186) * 0.00114 := by
    have hpos : 0 < |xe - x0| := lt_of_lt_of_le (by norm_num) h1
    refine le_of_mul_le_mul_left ?_ hpos
    rw [← Real.norm_eq_abs, ← Complex.norm_real, ← norm_mul]
    have e1 : ((xe - x0 : ℝ) : ℂ) * (M - M0 - m * (Me - M0)) =
        ((xe - x0 : ℝ) * (M - M0) - (x - x0 : ℝ) * (Me - M0)) + (x - x0 - m * (xe - x0) : ℝ) * (Me - M0) := by
      push_cast; ring
    rw [e1, Complex.norm_real, Real.norm_eq_abs]
    refine (norm_add_le _ _).trans ?_
    rw [norm_mul, Complex.norm_real, Real.norm_eq_abs]
    have g : |x - x0 - m * (xe - x0)| ≤ 0.00114 := by
      rw [show x - x0 - m * (xe - x0) = (x - x0 - e * m) - m * (xe - x0 - e) by ring]
      refine (abs_sub _ _).trans ?_
      rw [abs_mul, abs_of_nonneg m0]
      have := mul_le_of_le_one_left (abs_nonneg (xe - x0 - e)) m1
      norm_num at s1 s3 ⊢
      linarith
    have q : |xe - x| * |x - x0| ≤ 1.0012 / 4 := by
      have a := sq_nonneg (|xe - x| - |x - x0|)
      have b : |xe - x0| ^ 2 ≤ 1.0012 := by
        refine (pow_le_pow_left₀ (abs_nonneg _) h2 2).trans (by norm_num)
      rw [← h3] at b
      norm_num at b ⊢
      nlinarith
    have f1 : (A + 0.00039) / 2 * (|xe - x| * |x - x0| * |xe - x0|) ≤ (A + 0.00039) / 2 * (1.0012 / 4 * |xe - x0|) :=
      mul_le_mul_of_nonneg_left (mul_le_mul_of_nonneg_right q hpos.le) (by positivity)
    have f2 := mul_le_mul g z1 (norm_nonneg _) (by norm_num)
    refine (add_le_add (z3.trans f1) f2).trans (le_of_eq ?_)
    ring
  have AE : ‖w - w0 - m * (we - w0)‖ ≤ (A + 0.00039) * 1.0012 / 8 + (V + 0.0186) * 0.00114 + 0.000252 := by
    have e : w - w0 - m * (we - w0) = (M - M0 - m * (Me - M0)) + (((w - M) - (1 - m : ℝ) * (w0 - M0)) - m * (we - Me)) := by
      push_cast; ring
    rw [e]
    refine (norm_add_le _ _).trans (add_le_add X ?_)
    refine (norm_sub_le _ _).trans ?_
    have t := norm_sub_le (w - M) ((1 - m : ℝ) * (w0 - M0))
    rw [norm_mul, Complex.norm_real, Real.norm_eq_abs, abs_of_nonneg (by linarith)] at t
    rw [norm_mul, Complex.norm_real, Real.norm_eq_abs, abs_of_nonneg m0]
    have f1 := mul_le_mul_of_nonneg_left n0 (by linarith : 0 ≤ 1 - m)
    have f2 := mul_le_mul_of_nonneg_left n2 m0
    have k : (0.000252 : ℝ) = 0.000126 + 0.000126 := by norm_num
    rw [k]
    linarith
  exact args_chord m0 m1 hr low A1 AE k2 k3

/-- The constants of a planet, as real numbers. -/
theorem paces_real {o : Orbit} (ho : o ∈ orbits6) (hE : o.name ≠ "Earth") : (0 : ℝ) ≤ (pace o.name).1 ∧ (0 : ℝ) ≤ (pace o.name).2 ∧
    (0 : ℝ) < axisGap o ∧ (0 : ℝ) ≤ planeGap o ∧
    (axisGap o : ℝ) = planeGap o * 0.9107 - (o.rmax * o.bmax + 0.0001) * 0.4131 - 0.00013 ∧
    (((pace o.name).1 : ℝ) + 0.0186) * 1.0006 + 0.00026 ≤ 0.25 * axisGap o ∧
    ((((pace o.name).1 : ℝ) + 0.0186) * 1.0006 + 0.00026) ^ 2 +
      ((((pace o.name).2 : ℝ) + 0.00039) * 1.0012 + ((pace o.name).1 + 0.0186) * 0.00116 + 0.00052) * axisGap o ≤
      ((bend o.name : ℝ) - (bend o.name : ℝ) ^ 3 / 4) * (axisGap o : ℝ) ^ 2 ∧ (0 : ℝ) < bend o.name ∧ (bend o.name : ℝ) ≤ 0.095 ∧
    (((pace o.name).2 : ℝ) + 0.00039) * 1.0012 / 8 + ((pace o.name).1 + 0.0186) * 0.00114 + 0.000252 ≤ 0.2 * axisGap o ∧
    (((((pace o.name).1 : ℝ) + 0.0186) * 1.0006 + 0.00026) / axisGap o) ^ 2 / 4.5 +
      1.47 * (((((pace o.name).2 : ℝ) + 0.00039) * 1.0012 / 8 + ((pace o.name).1 + 0.0186) * 0.00114 + 0.000252) / axisGap o) +
      (bend o.name : ℝ) / 8 ≤ interpError o.name := by
  obtain ⟨w0, w1, w2, w3, w4, w5⟩ := paces_small o ho hE
  obtain ⟨v1, v2⟩ := paces_chord o ho hE
  have pos : (0 : ℝ) ≤ (pace o.name).1 ∧ (0 : ℝ) ≤ (pace o.name).2 := by
    have : 0 ≤ (pace o.name).1 ∧ 0 ≤ (pace o.name).2 := by
      unfold pace; split_ifs <;> norm_num
    exact_mod_cast this
  refine ⟨pos.1, pos.2, by exact_mod_cast w0, ?_, ?_, ?_, ?_, by exact_mod_cast w4, ?_, ?_, ?_⟩
  · have : (0 : ℚ) ≤ planeGap o := le_trans (by norm_num) w1
    exact_mod_cast this
  · unfold axisGap; push_cast; norm_num
  · have := (Rat.cast_le (K := ℝ)).mpr w2
    push_cast at this; norm_num at this ⊢; linarith
  · have := (Rat.cast_le (K := ℝ)).mpr w3
    push_cast at this; norm_num at this ⊢; linarith
  · have := (Rat.cast_le (K := ℝ)).mpr w5
    push_cast at this; norm_num at this ⊢; linarith
  · have := (Rat.cast_le (K := ℝ)).mpr v1
    push_cast at this; norm_num at this ⊢; linarith
  · have := (Rat.cast_le (K := ℝ)).mpr v2
    unfold chordTerm at this
    push_cast at this; norm_num at this ⊢; linarith

/-- Lower bound of the distance of a planet from the axis of the Earth. -/
theorem axis_far {o : Orbit} (ho : o ∈ orbits6) (hE : o.name ≠ "Earth") {c : Tables} (hc : HasTables o.name c) {jd x : ℝ}
    (h : |millennia jd| ≤ 5.89) (hx : |millennia x| ≤ 6) : (axisGap o : ℝ) + 0.00013 ≤
      ‖axisPlane (trueObliquity (jd + 0)) (nutationInLongitude (jd + 0)) (sep c earthTables x)‖ := by
  obtain ⟨g1, g2⟩ := sep_plane ho hE hc hx
  obtain ⟨v0, v1⟩ := cos_obliquity (obliquity_between (h.trans (by norm_num : (5.89 : ℝ) ≤ 5.9))).1
    (obliquity_between (h.trans (by norm_num : (5.89 : ℝ) ≤ 5.9))).2
  obtain ⟨-, -, -, gap0, wd, -⟩ := paces_real ho hE
  have lo := axisPlane_lower (psi := nutationInLongitude (jd + 0)) gap0 g1 g2 v0 v1
  generalize (axisGap o : ℝ) = r at *
  norm_num at lo wd ⊢; linarith

theorem axisPlane_scale (e psi k : ℝ) (v : V3) : axisPlane e psi (v.scale k) = k * axisPlane e psi v := by
  apply Complex.ext <;> simp [axisPlane, V3.scale] <;> ring

/-- The place at a time between the middle day and one of the others. -/
theorem planet_point {o : Orbit} (ho : o ∈ orbits6) (hE : o.name ≠ "Earth") {c : Tables} (hc : HasTables o.name c)
    {jd e m x0 y0 d0 x y d xe ye de : ℝ} (h : |millennia jd| ≤ 5.89) (he : e = 1 ∨ e = -1) (m0 : 0 ≤ m) (m1 : m ≤ 1)
    (S0 : SeenAt o c jd 0 x0 y0 d0) (S : SeenAt o c jd (e * m) x y d) (Se : SeenAt o c jd e xe ye de) :
    |(ofPlace (sep c earthTables x).norm y d / ofPlace (sep c earthTables x0).norm y0 d0).arg -
      m * (ofPlace (sep c earthTables xe).norm ye de / ofPlace (sep c earthTables x0).norm y0 d0).arg| +
        (bend o.name : ℝ) / 8 ≤ interpError o.name ∧ ofPlace (sep c earthTables x).norm y d ≠ 0 := by
  have ae : |e| = 1 := by rcases he with rfl | rfl <;> norm_num
  have s1 := emitted_step ho hc S0 S
  have s2 := emitted_step ho hc S Se
  rw [sub_zero, abs_mul, ae, one_mul, abs_of_nonneg m0] at s1
  rw [show e - e * m = e * (1 - m) by ring, abs_mul, ae, one_mul,
    abs_of_nonneg (a := 1 - m) (by linarith)] at s2
  obtain ⟨pV, pA, w0, -, -, w2, -, -, -, w3, w4⟩ := paces_real ho hE
  have lo := axis_far ho hE hc h S0.era
  have n0 := S0.near
  have n1 := S.near
  have n2 := Se.near
  have z : ‖axisPlane (trueObliquity (jd + 0)) (nutationInLongitude (jd + 0)) (sep c earthTables xe) -
        axisPlane (trueObliquity (jd + 0)) (nutationInLongitude (jd + 0)) (sep c earthTables x0)‖ ≤
        (((pace o.name).1 : ℝ) + 0.0186) * |xe - x0| ∧
      ‖((xe - x0 : ℝ) : ℂ) * (axisPlane (trueObliquity (jd + 0)) (nutationInLongitude (jd + 0)) (sep c earthTables x) -
        axisPlane (trueObliquity (jd + 0)) (nutationInLongitude (jd + 0)) (sep c earthTables x0)) -
        ((x - x0 : ℝ) : ℂ) * (axisPlane (trueObliquity (jd + 0)) (nutationInLongitude (jd + 0)) (sep c earthTables xe) -
        axisPlane (trueObliquity (jd + 0)) (nutationInLongitude (jd + 0)) (sep c earthTables x0))‖ ≤
      (((pace o.name).2 : ℝ) + 0.00039) / 2 * (|xe - x| * |x - x0| * |xe - x0|) := by
    have b1 := abs_le.mp s1
    have b2 := abs_le.mp s2
    norm_num at b1 b2
    rcases he with rfl | rfl
    · have o1 : x0 ≤ x := by linarith
      have o2 : x ≤ xe := by linarith
      have q1 := (sep_second ho hc S0.era S0.era Se.era le_rfl (o1.trans o2)).2.1
      have q2 := sep_chord ho hc S0.era S.era Se.era o1 o2
      rw [abs_of_nonneg (sub_nonneg.mpr o1), abs_of_nonneg (sub_nonneg.mpr o2), abs_of_nonneg (sub_nonneg.mpr (o1.trans o2))]
      refine ⟨by rw [← axisPlane_sub]; exact (axisPlane_norm _ _ _).trans q1, ?_⟩
      refine le_trans (le_of_eq ?_) ((axisPlane_norm (trueObliquity (jd + 0)) (nutationInLongitude (jd + 0)) _).trans q2)
      rw [axisPlane_sub, axisPlane_scale, axisPlane_scale, axisPlane_sub, axisPlane_sub, ← norm_neg]
      congr 1; push_cast; ring
    · have o1 : x ≤ x0 := by linarith
      have o2 : xe ≤ x := by linarith
      have q1 := (sep_second ho hc Se.era S0.era S0.era (o2.trans o1) le_rfl).1
      have q2 := sep_chord ho hc Se.era S.era S0.era o2 o1
      rw [abs_of_nonpos (sub_nonpos.mpr o1), abs_of_nonpos (sub_nonpos.mpr o2), abs_of_nonpos (sub_nonpos.mpr (o2.trans o1)),
        neg_sub, neg_sub, neg_sub]
      refine ⟨by rw [norm_sub_rev, ← axisPlane_sub]; exact (axisPlane_norm _ _ _).trans q1, ?_⟩
      refine le_trans (le_of_eq ?_) (((axisPlane_norm (trueObliquity (jd + 0)) (nutationInLongitude (jd + 0)) _).trans q2).trans
        (le_of_eq (by ring)))
      rw [axisPlane_sub, axisPlane_scale, axisPlane_scale, axisPlane_sub, axisPlane_sub]
      congr 1; push_cast; ring
  obtain ⟨z1, z3⟩ := z
  obtain ⟨r1, r2⟩ := near_args_chord pV pA w0 he m0 m1 s1 s2 n0 n1 n2 z1 z3 lo w2 w3
  exact ⟨le_trans (by linarith) w4, r2⟩

/-- A parabola and a function near a broken line. -/
theorem parabola_broken {y1 v0 v2 a n B C : ℝ} (hn : |n| ≤ 1) (hs : |v2 + v0| ≤ C)
    (h : 0 ≤ n ∧ |a - n * v2| + C / 8 ≤ B ∨ n ≤ 0 ∧ |a - -n * v0| + C / 8 ≤ B) :
    |parabola (y1 + v0, y1, y1 + v2) n - (y1 + a)| ≤ B := by
  have fin : ∀ {v q : ℝ}, |a - v| + C / 8 ≤ B → |q| ≤ 1 / 4 → |y1 + v + q / 2 * (v2 + v0) - (y1 + a)| ≤ B := by
    intro v q ha hq
    rw [show y1 + v + q / 2 * (v2 + v0) - (y1 + a) = -(a - v) + q / 2 * (v2 + v0) by ring]
    refine (abs_add_le _ _).trans (le_trans (add_le_add (le_of_eq (abs_neg _)) ?_) ha)
    rw [abs_mul, abs_div, abs_of_pos (by norm_num : (0 : ℝ) < 2)]
    refine (mul_le_mul (by linarith : |q| / 2 ≤ 1 / 8) hs (abs_nonneg _) (by norm_num)).trans (le_of_eq (by ring))
  have hn' := abs_le.mp hn
  rcases h with ⟨n0, h⟩ | ⟨n0, h⟩
  · have := fin (q := n ^ 2 - n) h (by rw [abs_le]; constructor <;> nlinarith [sq_nonneg (n - 1 / 2)])
    refine le_trans (le_of_eq ?_) this
    congr 1
    unfold parabola
    ring
  · have := fin (q := n ^ 2 + n) h (by rw [abs_le]; constructor <;> nlinarith [sq_nonneg (n + 1 / 2)])
    refine le_trans (le_of_eq ?_) this
    congr 1
    unfold parabola
    ring

theorem unwrap_turns {y y1 a : ℝ} {j : ℤ} (h : y = y1 + a + j * (2 * π)) : y + (-j : ℤ) * (2 * π) = y1 + a := by
  rw [h]; push_cast; ring

/-- The right ascensions of a planet on three days, unwrapped, and the error of the interpolation between them. -/
theorem planet_day {p : String} (hp : p ∈ knownPlanets) (hE : p ≠ "Earth") {jd : ℝ} (h : |millennia jd| ≤ 5.89) :
    ∃ y d : ℝ × ℝ × ℝ, place (jd - 1) p = .ok (y.1, d.1, standardRstAltitude) ∧
      place jd p = .ok (y.2.1, d.2.1, standardRstAltitude) ∧ place (jd + 1) p = .ok (y.2.2, d.2.2, standardRstAltitude) ∧
      ∃ u, Reduced y u ∧ Slow 0.26 (bend p) u ∧ ∀ n, |n| ≤ 1 → ∃ z s, ∃ k : ℤ,
        place (jd + n) p = .ok (z, s, standardRstAltitude) ∧ |parabola u n - (z + k * (2 * π))| ≤ interpError p := by
  obtain ⟨o, ho, rfl⟩ := orbit_of_name hp
  obtain ⟨cL, cB, cR, hL, hB, hR, -, -⟩ := orbitOk_spec (orbits6_ok o ho)
  have hc : HasTables o.name ⟨cL, cB, cR⟩ := ⟨hL, hB, hR⟩
  generalize (⟨cL, cB, cR⟩ : Tables) = c at hc
  obtain ⟨x0, y0, d0, S0⟩ := planet_at ho hE hc (n := -1) h (by norm_num)
  obtain ⟨x1, y1, d1, S1⟩ := planet_at ho hE hc (n := 0) h (by norm_num)
  obtain ⟨x2, y2, d2, S2⟩ := planet_at ho hE hc (n := 1) h (by norm_num)
  have t0 := abs_le.mp (emitted_step ho hc S0 S1)
  have t1 := abs_le.mp (emitted_step ho hc S1 S2)
  norm_num at t0 t1
  obtain ⟨q1, q2, q3⟩ := sep_second ho hc S0.era S1.era S2.era (by linarith) (by linarith)
  obtain ⟨pV, pA, w0, -, -, w2, w3, w4, w5, -⟩ := paces_real ho hE
  have lo := axis_far ho hE hc h S1.era
  have key : ∀ {e m x y d xe ye de : ℝ}, e = 1 ∨ e = -1 → 0 ≤ m → m ≤ 1 → SeenAt o c jd (e * m) x y d →
      SeenAt o c jd e xe ye de → _ := fun he m0 m1 S Se => planet_point ho hE hc h he m0 m1 S1 S Se
  have z1 : ‖axisPlane (trueObliquity (jd + 0)) (nutationInLongitude (jd + 0)) (sep c earthTables x1) -
      axisPlane (trueObliquity (jd + 0)) (nutationInLongitude (jd + 0)) (sep c earthTables x0)‖ ≤
      (((pace o.name).1 : ℝ) + 0.0186) * (x1 - x0) := by
    rw [← axisPlane_sub]; exact (axisPlane_norm _ _ _).trans q1
  have z2 : ‖axisPlane (trueObliquity (jd + 0)) (nutationInLongitude (jd + 0)) (sep c earthTables x2) -
      axisPlane (trueObliquity (jd + 0)) (nutationInLongitude (jd + 0)) (sep c earthTables x1)‖ ≤
      (((pace o.name).1 : ℝ) + 0.0186) * (x2 - x1) := by
    rw [← axisPlane_sub]; exact (axisPlane_norm _ _ _).trans q2
  have z3 := (axisPlane_norm (trueObliquity (jd + 0)) (nutationInLongitude (jd + 0)) _).trans q3
  rw [axisPlane_sub, axisPlane_sub, axisPlane_sub] at z3
  obtain ⟨r2, r0, rs, ne0, ne1, ne2⟩ := near_args_slow pV pA w0 (by norm_num; linarith) (by norm_num; linarith)
    (by norm_num; linarith) (by norm_num; linarith) S0.near S1.near S2.near z1 z2 z3 lo w2 w3 w4 (w5.trans (by norm_num))
  have N0 := norm_nonneg' (sep c earthTables x0)
  have N1 := norm_nonneg' (sep c earthTables x1)
  have N2 := norm_nonneg' (sep c earthTables x2)
  have c1 := S1.cosDec
  have g : ∀ {k y d : ℝ}, ofPlace k y d ≠ 0 → 0 ≤ k → 0 ≤ cos d →
      ∃ j : ℤ, y = y1 + (ofPlace k y d / ofPlace (sep c earthTables x1).norm y1 d1).arg + j * (2 * π) := by
    intro k y d hne hk hd
    have a := Complex.arg_div_coe_angle hne ne1
    rw [ofPlace_arg hne hk hd, ofPlace_arg ne1 N1 c1, ← Real.Angle.coe_sub, Real.Angle.angle_eq_iff_two_pi_dvd_sub] at a
    obtain ⟨j, hj⟩ := a
    exact ⟨-j, by push_cast; linarith⟩
  obtain ⟨j0, h0⟩ := g ne0 N0 S0.cosDec
  obtain ⟨j2, h2⟩ := g ne2 N2 S2.cosDec
  set v0 := (ofPlace (sep c earthTables x0).norm y0 d0 / ofPlace (sep c earthTables x1).norm y1 d1).arg with hv0
  set v2 := (ofPlace (sep c earthTables x2).norm y2 d2 / ofPlace (sep c earthTables x1).norm y1 d1).arg with hv2
  refine ⟨(y0, y1, y2), (d0, d1, d2), by rw [sub_eq_add_neg]; exact S0.place, by have := S1.place; rwa [add_zero] at this,
    S2.place, (y1 + v0, y1, y1 + v2),
    ⟨⟨S0.ra0, S0.ra1, j0, h0⟩, ⟨S1.ra0, S1.ra1, 0, by simp⟩, ⟨S2.ra0, S2.ra1, j2, h2⟩⟩, ⟨?_, ?_, ?_⟩, fun n hn => ?_⟩
  · simp only; rw [sub_add_cancel_left, abs_neg]; exact r0
  · simp only; rw [add_sub_cancel_left]; exact r2
  · simp only
    rw [show y1 + v2 - 2 * y1 + (y1 + v0) = v2 + v0 by ring]
    exact rs
  obtain ⟨x, y, d, S⟩ := planet_at ho hE hc h hn
  have hn' := abs_le.mp hn
  rcases le_total 0 n with n0 | n0
  · obtain ⟨k1, k2⟩ := key (.inl rfl) n0 hn'.2 (by rw [one_mul]; exact S) S2
    rw [← hv2] at k1
    obtain ⟨j, hj⟩ := g k2 (norm_nonneg' _) S.cosDec
    exact ⟨y, d, -j, S.place, by
      rw [unwrap_turns hj]; exact parabola_broken hn rs (.inl ⟨n0, k1⟩)⟩
  · obtain ⟨k1, k2⟩ := key (m := -n) (.inr rfl) (by linarith) (by linarith [hn'.1]) (by rw [neg_one_mul, neg_neg]; exact S) S0
    rw [← hv0] at k1
    obtain ⟨j, hj⟩ := g k2 (norm_nonneg' _) S.cosDec
    exact ⟨y, d, -j, S.place, by
      rw [unwrap_turns hj]; exact parabola_broken hn rs (.inr ⟨n0, k1⟩)⟩

/-- The right ascensions of a planet on three days, unwrapped. -/
theorem planet_day_slow {p : String} (hp : p ∈ knownPlanets) (hE : p ≠ "Earth") {jd : ℝ} (h : |millennia jd| ≤ 5.89) :
    ∃ y d : ℝ × ℝ × ℝ, place (jd - 1) p = .ok (y.1, d.1, standardRstAltitude) ∧
      place jd p = .ok (y.2.1, d.2.1, standardRstAltitude) ∧ place (jd + 1) p = .ok (y.2.2, d.2.2, standardRstAltitude) ∧
      ∃ u, Reduced y u ∧ Slow 0.26 0.095 u := by
  obtain ⟨y, d, h0, h1, h2, u, hr, hs, -⟩ := planet_day hp hE h
  obtain ⟨o, ho, rfl⟩ := orbit_of_name hp
  exact ⟨y, d, h0, h1, h2, u, hr, hs.1, hs.2.1, hs.2.2.trans (paces_real ho hE).2.2.2.2.2.2.2.2.1⟩

end

end Verif

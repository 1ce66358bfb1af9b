import Verif.Model.FloatGeo
import Verif.Lemmas.FloatCoord
import Verif.Props.FloatVsop
import Verif.Props.Geocentric

/-!
# Rounding errors of `planets.geocentric_planet`
-/

namespace Verif
open Real

theorem norm_le_sum (v : V3) : v.norm ≤ |v.x| + |v.y| + |v.z| := by
  unfold V3.norm
  rw [Real.sqrt_le_left (by positivity)]
  have a := abs_nonneg v.x
  have b := abs_nonneg v.y
  have c := abs_nonneg v.z
  rw [← sq_abs v.x, ← sq_abs v.y, ← sq_abs v.z]
  nlinarith [mul_nonneg a b, mul_nonneg a c, mul_nonneg b c]

theorem abs_le_norm (v : V3) : |v.x| ≤ v.norm ∧ |v.y| ≤ v.norm ∧ |v.z| ≤ v.norm := by
  unfold V3.norm
  refine ⟨?_, ?_, ?_⟩ <;> apply Real.abs_le_sqrt <;> nlinarith [sq_nonneg v.x, sq_nonneg v.y, sq_nonneg v.z]

/-- Vectors given by direction and length. -/
theorem scale_near {R r l b l' b' : ℝ} (hr : 0 ≤ r) :
    ((V3.scale R (direction l b)).sub (V3.scale r (direction l' b'))).norm ≤ |R - r| + r * (|l - l'| + |b - b'|) := by
  have t := norm_triangle (V3.scale R (direction l b)) (V3.scale r (direction l b)) (V3.scale r (direction l' b'))
  have e1 : ((V3.scale R (direction l b)).sub (V3.scale r (direction l b))).norm = |R - r| := by
    have : (V3.scale R (direction l b)).sub (V3.scale r (direction l b)) = V3.scale (R - r) (direction l b) := by
      simp only [V3.sub, V3.scale]; ext <;> ring
    rw [this, norm_scale, norm_direction, mul_one]
  have e2 : ((V3.scale r (direction l b)).sub (V3.scale r (direction l' b'))).norm ≤ r * (|l - l'| + |b - b'|) := by
    have : (V3.scale r (direction l b)).sub (V3.scale r (direction l' b')) =
        V3.scale r ((direction l b).sub (direction l' b')) := by
      simp only [V3.sub, V3.scale]; ext <;> ring
    rw [this, norm_scale, abs_of_nonneg hr]
    exact mul_le_mul_of_nonneg_left (direction_lip _ _ _ _) hr
  linarith

/-- Error of the position of a planet (astronomical units). -/
theorem tols6_pos : (∀ t ∈ tols6, ∀ o ∈ orbits6, o.name = t.name → 0 ≤ o.rmax ∧
      o.rmax * (t.tolL + t.tolB) + t.tolR ≤ 1.66e-9 ∧ t.tolR ≤ 1e-9) ∧
    ∀ t ∈ tols6, ∀ o ∈ orbits6, o.name = "Earth" → t.name = "Earth" →
      o.rmax * (t.tolL + t.tolB) + t.tolR ≤ 7.6e-10 := by decide +kernel

theorem tols6_of_name {p : String} (h : p ∈ knownPlanets) : ∃ t ∈ tols6, t.name = p := by
  have : tols6.map Tol.name = knownPlanets := by decide
  rw [← this] at h
  obtain ⟨o, ho, e⟩ := List.mem_map.mp h
  exact ⟨o, ho, e⟩

theorem helioF_near {fl : ℚ → ℚ} (hf : FloatLike fl) {lib : NumLib} (hl : lib.Good fl 64) {p : String}
    (hp : p ∈ knownPlanets) {c : Tables} (hc : HasTables p c) (t : ℚ) (ht : |millennia t| ≤ 6) :
    ∃ L B R, helioF fl lib t p = .ok (L, B, R) ∧ |(R : ℝ)| ≤ 30.42 ∧
      ((V3.scale R (direction L B)).sub (c.pos t)).norm ≤ 1.66e-9 ∧
      (p = "Earth" → ((V3.scale R (direction L B)).sub (c.pos t)).norm ≤ 7.6e-10) := by
  obtain ⟨o, ho, ne⟩ := orbit_of_name hp
  obtain ⟨τ, hτ, nt⟩ := tols6_of_name hp
  obtain ⟨q0, q1, q2⟩ := tols6_pos.1 τ hτ o ho (by rw [ne, nt])
  have q3 : p = "Earth" → o.rmax * (τ.tolL + τ.tolB) + τ.tolR ≤ 7.6e-10 := fun e =>
    tols6_pos.2 τ hτ o ho (by rw [ne, e]) (by rw [nt, e])
  obtain ⟨⟨L, l, k, a1, a2, a3, -, -⟩, ⟨B, b, i, b1, b2, b3, b4, -⟩, ⟨R, r, j, c1, c2, c3, c4, -⟩⟩ :=
    vsop_float_6 hf hl.cos hl.sum t ht τ hτ
  rw [nt] at a1 a2 b1 b2 c1 c2
  obtain ⟨kL, kB, kR⟩ := hc
  rw [vsop_dimension_value _ _ _ _ kL, Except.ok.injEq, Out.scalar.injEq, if_pos rfl] at a2
  rw [vsop_dimension_value _ _ _ _ kB, Except.ok.injEq, Out.scalar.injEq, if_neg (by decide)] at b2
  rw [vsop_dimension_value _ _ _ _ kR, Except.ok.injEq, Out.scalar.injEq, if_neg (by decide)] at c2
  have b4 := b4 (by decide)
  have c4 := c4 (by decide)
  subst b4 c4
  obtain ⟨-, -, n, r2⟩ := modpi2_spec (poisson c.L (millennia t))
  obtain ⟨p1, p2, -⟩ := tables_orbit ho (c := c) (by rw [ne]; exact ⟨kL, kB, kR⟩) ht
  have rmin0 : (0 : ℝ) < o.rmin := by exact_mod_cast (orbits_ordered.2.2.2.2 o ho).1
  have far : (o.rmax : ℝ) ≤ 30.41 := by
    have := (Rat.cast_le (K := ℝ)).mpr (orbits_far o ho).1
    push_cast at this; exact this
  have q0' : (0 : ℝ) ≤ o.rmax := by exact_mod_cast q0
  rw [c2] at p1 p2
  simp only [Int.cast_zero, zero_mul, sub_zero] at b3 c3
  have r0 : 0 ≤ r := by linarith
  have dist : ((V3.scale R (direction L B)).sub (c.pos t)).norm ≤ o.rmax * (τ.tolL + τ.tolB) + τ.tolR := by
    have e : c.pos t = V3.scale r (direction (l + k * (2 * π)) b) := by
      unfold Tables.pos
      rw [b2, c2, direction_congr (l := poisson c.L (millennia t)) (l' := l + k * (2 * π)) (b := b) (b' := b)
        ⟨-n - k, ?_⟩ (congr_refl _)]
      rw [← a2, r2]; push_cast; ring
    rw [e]
    refine (scale_near r0).trans ?_
    have s : |(L : ℝ) - (l + k * (2 * π))| + |(B : ℝ) - b| ≤ τ.tolL + τ.tolB := by
      rw [show (L : ℝ) - (l + k * (2 * π)) = L - l - k * (2 * π) by ring]
      exact add_le_add a3 b3
    have s0 : 0 ≤ |(L : ℝ) - (l + k * (2 * π))| + |(B : ℝ) - b| := by positivity
    have := mul_le_mul p2 s s0 q0'
    linarith
  refine ⟨L, B, R, ?_, ?_, dist.trans ?_, fun e => dist.trans ?_⟩
  · unfold helioF
    rw [a1, b1, c1]; rfl
  · have := (Rat.cast_le (K := ℝ)).mpr q2
    push_cast at this
    have h := (abs_le.mp c3)
    rw [abs_le]
    norm_num at this far ⊢
    constructor <;> linarith [h.1, h.2]
  · have := (Rat.cast_le (K := ℝ)).mpr q1
    push_cast at this; exact this
  · have := (Rat.cast_le (K := ℝ)).mpr (q3 e)
    push_cast at this; exact this

/-- `R * cosB * cos L`. -/
theorem prodR_near {fl : ℚ → ℚ} (hf : FloatLike fl) {R C D : ℚ} {c d : ℝ} (hR : |(R : ℝ)| ≤ 30.42)
    (h1 : Near C c (1 / 2 ^ 50)) (h2 : Near D d (1 / 2 ^ 50)) (b1 : |c| ≤ 1) (b2 : |d| ≤ 1) :
    |(R : ℝ) * c * d| ≤ 30.42 ∧ Near (fl (fl (R * C) * D)) (R * c * d) 6.2e-14 := by
  have m1 : |(R : ℝ) * c| ≤ 30.42 := by
    rw [abs_mul]; exact (mul_le_mul hR b1 (abs_nonneg _) (by norm_num)).trans (by norm_num)
  have m2 : |(R : ℝ) * c * d| ≤ 30.42 := by
    rw [abs_mul]; exact (mul_le_mul m1 b2 (abs_nonneg _) (by norm_num)).trans (by norm_num)
  have n1 : Near (fl (R * C)) (R * c) 3.1e-14 :=
    ((near_self R).mul h1 hR b1).rnd hf m1 (by rw [uuR, wwR]; norm_num)
  exact ⟨m2, (n1.mul h2 m1 b2).rnd hf m2 (by rw [uuR, wwR]; norm_num)⟩

theorem prodR1_near {fl : ℚ → ℚ} (hf : FloatLike fl) {R C : ℚ} {c : ℝ} (hR : |(R : ℝ)| ≤ 30.42)
    (h1 : Near C c (1 / 2 ^ 50)) (b1 : |c| ≤ 1) :
    |(R : ℝ) * c| ≤ 30.42 ∧ Near (fl (R * C)) (R * c) 6.2e-14 := by
  have m1 : |(R : ℝ) * c| ≤ 30.42 := by
    rw [abs_mul]; exact (mul_le_mul hR b1 (abs_nonneg _) (by norm_num)).trans (by norm_num)
  exact ⟨m1, ((near_self R).mul h1 hR b1).rnd hf m1 (by rw [uuR, wwR]; norm_num)⟩

theorem subR_near {fl : ℚ → ℚ} (hf : FloatLike fl) {P Q : ℚ} {p q : ℝ} (b1 : |p| ≤ 30.42) (b2 : |q| ≤ 30.42)
    (h1 : Near P p 6.2e-14) (h2 : Near Q q 6.2e-14) : Near (fl (P - Q)) (p - q) 1.4e-13 := by
  have : |p - q| ≤ 60.84 := (abs_sub _ _).trans (by norm_num at b1 b2 ⊢; linarith)
  exact (h1.sub h2).rnd hf this (by rw [uuR, wwR]; norm_num)

/-- The rectangular offset. -/
theorem rectOffsetF_near {fl : ℚ → ℚ} (hf : FloatLike fl) {lib : NumLib} (hl : lib.Good fl 64) {p : String}
    (hp : p ∈ knownPlanets) {c : Tables} (hc : HasTables p c) (t : ℚ) (ht : |millennia t| ≤ 6) :
    ∃ e q X Y Z, helioF fl lib t "Earth" = .ok e ∧ helioF fl lib t p = .ok q ∧
      rectOffsetF fl lib e q = (X, Y, Z) ∧ (V3.sub ⟨X, Y, Z⟩ (sep c earthTables t)).norm ≤ 2.43e-9 := by
  obtain ⟨L0, B0, R0, e1, e2, -, e3⟩ := helioF_near hf hl (p := "Earth") (by decide) earth_hasTables t ht
  obtain ⟨L, B, R, p1, p2, p3, -⟩ := helioF_near hf hl hp hc t ht
  have e3 := e3 rfl
  refine ⟨_, _, _, _, _, e1, p1, rfl, ?_⟩
  have x1 := prodR_near hf p2 (hl.cos B) (hl.cos L) (abs_cos_le_one _) (abs_cos_le_one _)
  have x2 := prodR_near hf e2 (hl.cos B0) (hl.cos L0) (abs_cos_le_one _) (abs_cos_le_one _)
  have y1 := prodR_near hf p2 (hl.cos B) (hl.sin L) (abs_cos_le_one _) (abs_sin_le_one _)
  have y2 := prodR_near hf e2 (hl.cos B0) (hl.sin L0) (abs_cos_le_one _) (abs_sin_le_one _)
  have z1 := prodR1_near hf p2 (hl.sin B) (abs_sin_le_one _)
  have z2 := prodR1_near hf e2 (hl.sin B0) (abs_sin_le_one _)
  have x := subR_near hf x1.1 x2.1 x1.2 x2.2
  have y := subR_near hf y1.1 y2.1 y1.2 y2.2
  have z := subR_near hf z1.1 z2.1 z1.2 z2.2
  unfold Near at x y z
  generalize fl (fl (fl (R * lib.cosF B) * lib.cosF L) - fl (fl (R0 * lib.cosF B0) * lib.cosF L0)) = X at *
  generalize fl (fl (fl (R * lib.cosF B) * lib.sinF L) - fl (fl (R0 * lib.cosF B0) * lib.sinF L0)) = Y at *
  generalize fl (fl (R * lib.sinF B) - fl (R0 * lib.sinF B0)) = Z at *
  have t1 := norm_triangle ⟨X, Y, Z⟩ ((V3.scale R (direction L B)).sub (V3.scale R0 (direction L0 B0)))
    (sep c earthTables t)
  have t2 : (V3.sub ⟨X, Y, Z⟩ ((V3.scale R (direction L B)).sub (V3.scale R0 (direction L0 B0)))).norm ≤ 4.2e-13 := by
    refine (norm_le_sum _).trans ?_
    simp only [V3.sub, V3.scale, direction, ← mul_assoc]
    norm_num at x y z ⊢
    linarith
  have t3 : (((V3.scale R (direction L B)).sub (V3.scale R0 (direction L0 B0))).sub (sep c earthTables t)).norm ≤
      1.66e-9 + 7.6e-10 := by
    have n := norm_triangle ((V3.scale R (direction L B)).sub (V3.scale R0 (direction L0 B0)))
      ((c.pos t).sub (V3.scale R0 (direction L0 B0))) (sep c earthTables t)
    have n1 : ((V3.scale R (direction L B)).sub (V3.scale R0 (direction L0 B0))).sub
        ((c.pos t).sub (V3.scale R0 (direction L0 B0))) = (V3.scale R (direction L B)).sub (c.pos t) := by
      simp only [V3.sub]; ext <;> ring
    have n2 : ((c.pos t).sub (V3.scale R0 (direction L0 B0))).sub (sep c earthTables t) =
        (earthTables.pos t).sub (V3.scale R0 (direction L0 B0)) := by
      simp only [V3.sub, sep]; ext <;> ring
    rw [n1, n2, norm_sub_comm (earthTables.pos t)] at n
    exact n.trans (add_le_add p3 e3)
  norm_num at t2 t3 ⊢
  linarith

/-! ### Square roots -/

/-- The square root of a rounded number. -/
theorem sqrtF_near {fl : ℚ → ℚ} {lib : GeoLib} {N : ℕ} (hl : lib.Good fl N) {W : ℚ} {q : ℝ} (hq : 0 ≤ q)
    (h32 : √q ≤ 32) (h : |(W : ℝ) - q| ≤ 1e-15 * q) : |(lib.sqrtF W : ℝ) - √q| ≤ 7e-14 := by
  obtain ⟨h1, h2⟩ := abs_le.mp h
  have W0 : (0 : ℝ) ≤ W := by norm_num at h1; linarith
  have s := hl.sqrt W (by exact_mod_cast W0)
  have d : |√(W : ℝ) - √q| ≤ 3.2e-14 := by
    have e : (√(W : ℝ) - √q) * (√(W : ℝ) + √q) = W - q := by
      rw [mul_comm, ← sq_sub_sq, Real.sq_sqrt W0, Real.sq_sqrt hq]
    have q0 := Real.sqrt_nonneg q
    have w0 := Real.sqrt_nonneg (W : ℝ)
    rcases eq_or_lt_of_le q0 with hz | hz
    · have : q = 0 := (Real.sqrt_eq_zero hq).mp hz.symm
      subst this
      simp at h
      rw [h]; simp; norm_num
    · have k : |√(W : ℝ) - √q| * √q ≤ 1e-15 * √q * √q := by
        rw [mul_assoc, Real.mul_self_sqrt hq]
        refine le_trans ?_ h
        rw [← e, abs_mul, abs_of_nonneg (add_nonneg w0 q0)]
        exact mul_le_mul_of_nonneg_left (by linarith) (abs_nonneg _)
      have := le_of_mul_le_mul_right k hz
      norm_num at this ⊢; linarith
  have : √(W : ℝ) ≤ 32.1 := by have := (abs_le.mp d).2; norm_num at this ⊢; linarith
  have t := abs_sub_le (lib.sqrtF W : ℝ) √(W : ℝ) √q
  norm_num at s d t ⊢
  linarith

/-- Sums of squares. -/
theorem squares_near {fl : ℚ → ℚ} (hf : FloatLike fl) (X Y Z : ℚ) (h : (0.01 : ℝ) ≤ (X : ℝ) ^ 2 + (Y : ℝ) ^ 2) :
    |(fl (fl (X * X) + fl (Y * Y)) : ℝ) - ((X : ℝ) ^ 2 + (Y : ℝ) ^ 2)| ≤ 1e-15 * ((X : ℝ) ^ 2 + (Y : ℝ) ^ 2) ∧
    |(fl (fl (fl (X * X) + fl (Y * Y)) + fl (Z * Z)) : ℝ) - ((X : ℝ) ^ 2 + (Y : ℝ) ^ 2 + (Z : ℝ) ^ 2)| ≤
      1e-15 * ((X : ℝ) ^ 2 + (Y : ℝ) ^ 2 + (Z : ℝ) ^ 2) := by
  have sq : ∀ x : ℚ, |(fl (x * x) : ℝ) - (x : ℝ) ^ 2| ≤ 1 / 2 ^ 53 * ((x : ℝ) ^ 2 + 1 / 10 ^ 30) := by
    intro x
    have := hf.errR (x * x)
    rw [uuR, wwR] at this
    push_cast at this
    rw [abs_of_nonneg (mul_self_nonneg (x : ℝ)), ← pow_two (x : ℝ)] at this
    exact this
  have a := sq X
  have b := sq Y
  have c := sq Z
  have x0 := sq_nonneg (X : ℝ)
  have y0 := sq_nonneg (Y : ℝ)
  have z0 := sq_nonneg (Z : ℝ)
  have d := hf.errR (fl (X * X) + fl (Y * Y))
  have e := hf.errR (fl (fl (X * X) + fl (Y * Y)) + fl (Z * Z))
  rw [uuR, wwR] at d e
  push_cast at d e
  generalize (fl (fl (fl (X * X) + fl (Y * Y)) + fl (Z * Z)) : ℝ) = V at *
  generalize (fl (fl (X * X) + fl (Y * Y)) : ℝ) = U at *
  generalize (fl (X * X) : ℝ) = A at *
  generalize (fl (Y * Y) : ℝ) = B at *
  generalize (fl (Z * Z) : ℝ) = C at *
  generalize (X : ℝ) ^ 2 = x at *
  generalize (Y : ℝ) ^ 2 = y at *
  generalize (Z : ℝ) ^ 2 = z at *
  have d' : |A + B| ≤ x + y + 1e-15 * (x + y) := by
    rw [abs_le] at *
    norm_num at *
    constructor <;> linarith [a.1, a.2, b.1, b.2]
  have d2 : |U - (x + y)| ≤ 4e-16 * (x + y) := by
    rw [abs_le] at a b d ⊢
    norm_num at *
    constructor <;> linarith [a.1, a.2, b.1, b.2, d.1, d.2]
  have e' : |U + C| ≤ (x + y + z) + 1e-15 * (x + y + z) := by
    rw [abs_le] at d2 c ⊢
    norm_num at *
    constructor <;> linarith [c.1, c.2, d2.1, d2.2]
  constructor
  · refine d2.trans ?_
    norm_num at *; linarith
  · rw [abs_le] at d2 c e ⊢
    norm_num at *
    constructor <;> linarith [c.1, c.2, d2.1, d2.2, e.1, e.2]

/-! ### The angles -/

theorem atan2F_near {fl : ℚ → ℚ} {lib : TrigLib} {N : ℕ} (hl : lib.Good fl N) {X Y : ℚ} {x y r e : ℝ}
    (hr : 0 < r) (h : r ^ 2 ≤ (X : ℝ) ^ 2 + (Y : ℝ) ^ 2) (h' : r ^ 2 ≤ x ^ 2 + y ^ 2) (he : 0 ≤ e)
    (hd : ((X : ℝ) - x) ^ 2 + ((Y : ℝ) - y) ^ 2 ≤ e ^ 2) :
    NearA (lib.atan2F Y X) (arctan2 y x) (π / 2 * (e / r) + 1 / 2 ^ 50) := by
  have a := arctan2_near hr h' h he (by rw [← neg_sq, neg_sub, ← neg_sq (y - _), neg_sub]; exact hd)
  have nz : X ≠ 0 ∨ Y ≠ 0 := by
    by_contra hn
    push Not at hn
    rw [hn.1, hn.2] at h
    have := pow_pos hr 2
    norm_num at h; linarith
  obtain ⟨k, hk⟩ := hl.atan2 Y X nz
  obtain ⟨j, hj⟩ := diff_angle_congr (arctan2 y x) (arctan2 (Y : ℝ) (X : ℝ))
  refine ⟨k - j, ?_⟩
  unfold Near
  have t := abs_sub_le ((lib.atan2F Y X : ℝ)) (arctan2 (Y : ℝ) X + k * (2 * π)) (arctan2 y x + ((k - j : ℤ) : ℝ) * (2 * π))
  have e : arctan2 (Y : ℝ) X + k * (2 * π) - (arctan2 y x + ((k - j : ℤ) : ℝ) * (2 * π)) =
      diffAngle (arctan2 y x) (arctan2 (Y : ℝ) (X : ℝ)) := by
    rw [hj]; push_cast; ring
  rw [e] at t
  linarith

end Verif

import Verif.Lemmas.LightTime
import Verif.Props.Fk5
import Mathlib.Topology.Order.IntermediateValue

/-!
# C49: geocentric positions of the planets, with light-time and aberration
-/

namespace Verif
open Real

/-- Longitude of a vector. -/
noncomputable def V3.lon (v : V3) : ℝ := arctan2 v.y v.x
/-- Latitude of a vector. -/
noncomputable def V3.lat (v : V3) : ℝ := arctan2 v.z (√(v.x ^ 2 + v.y ^ 2))

theorem helioScalars_value {p : String} {c : Tables} (h : HasTables p c) (t : ℝ) :
    helioScalars vsopDict t p = .ok (modpi2 (poisson c.L (millennia t)), poisson c.B (millennia t),
      poisson c.R (millennia t)) := by
  unfold helioScalars
  rw [vsop_dimension3_value t p c.L c.B c.R h.1 h.2.1 h.2.2]
  rfl

theorem rectOffset_value (c e : Tables) (t : ℝ) :
    rectOffset (modpi2 (poisson e.L (millennia t)), poisson e.B (millennia t), poisson e.R (millennia t))
      (modpi2 (poisson c.L (millennia t)), poisson c.B (millennia t), poisson c.R (millennia t)) =
    ((sep c e t).x, (sep c e t).y, (sep c e t).z) := by
  simp only [rectOffset, sep, V3.sub, pos_plane, cos_modpi2, sin_modpi2]

/-- One pass of the loop. -/
theorem loop_step {p : String} {c : Tables} (h : HasTables p c) (jd delta : ℝ) (n : ℕ) (t l0 : ℝ) :
    geocentricLoop vsopDict jd p delta (n + 1) t l0 =
      if |diffAngle (sep c earthTables t).lon l0| < 2 * π * delta then
        .ok ((sep c earthTables t).lon, (sep c earthTables t).lat)
      else geocentricLoop vsopDict jd p delta n (jd - lightDay * (sep c earthTables t).norm)
        (sep c earthTables t).lon := by
  rw [geocentricLoop]
  rw [helioScalars_value earth_hasTables, helioScalars_value h]
  simp only [bind, Except.bind, rectOffset_value, V3.lon, V3.lat, V3.norm, lightDay, pi2, pow_two]

/-- More passes do not change a result. -/
theorem loop_mono {p : String} {c : Tables} (h : HasTables p c) {jd delta : ℝ} {n : ℕ} {r : ℝ × ℝ}
    (m : ℕ) : ∀ {t l0 : ℝ}, geocentricLoop vsopDict jd p delta n t l0 = .ok r →
      geocentricLoop vsopDict jd p delta (n + m) t l0 = .ok r := by
  induction n with
  | zero => intro t l0 e; simp [geocentricLoop] at e
  | succ n ih =>
    intro t l0 e
    rw [show n + 1 + m = (n + m) + 1 by omega]
    rw [loop_step h] at e ⊢
    split_ifs at e ⊢
    · exact e
    · exact ih e

/-- The times that occur in the iteration. -/
def Window (jd t : ℝ) : Prop := jd - 0.2 ≤ t ∧ t ≤ jd

theorem window_era {jd t : ℝ} (h : |millennia jd| ≤ 5.9) (w : Window jd t) : |millennia t| ≤ 6 := by
  have e : millennia t = millennia jd + (t - jd) / 365250 := by unfold millennia; ring
  obtain ⟨w1, w2⟩ := w
  have : |(t - jd) / 365250| ≤ 0.1 := by
    rw [abs_div, abs_of_pos (by norm_num : (0 : ℝ) < 365250), div_le_iff₀ (by norm_num), abs_le]
    norm_num at w1 ⊢; constructor <;> linarith
  rw [e]
  refine (abs_add_le _ _).trans ?_
  norm_num at h this ⊢; linarith

section
variable {p : String} {c : Tables} {jd : ℝ}

theorem step_window (hp : p ∈ knownPlanets) (hE : p ≠ "Earth") (hc : HasTables p c)
    (h : |millennia jd| ≤ 5.9) {t : ℝ} (w : Window jd t) :
    Window jd (jd - lightDay * (sep c earthTables t).norm) := by
  have b := (sep_bounds hp hE hc (window_era h w)).2.2
  have n := norm_nonneg' (sep c earthTables t)
  unfold Window lightDay
  norm_num at b ⊢
  constructor <;> linarith

/-- The iteration contracts. -/
theorem step_contract (hp : p ∈ knownPlanets) (hc : HasTables p c) (h : |millennia jd| ≤ 5.9)
    {t s : ℝ} (wt : Window jd t) (ws : Window jd s) :
    |(jd - lightDay * (sep c earthTables t).norm) - (jd - lightDay * (sep c earthTables s).norm)| ≤
      0.00056 * |t - s| := by
  have l := sep_lip hp hc (window_era h wt) (window_era h ws)
  have a := abs_norm_sub (sep c earthTables t) (sep c earthTables s)
  rw [show ∀ j k a b : ℝ, j - k * a - (j - k * b) = -(k * (a - b)) by intros; ring, abs_neg, abs_mul]
  have n := abs_nonneg (t - s)
  have k : |lightDay| = 0.0057755183 := by unfold lightDay; rw [abs_of_pos]; norm_num
  rw [k]
  have := mul_le_mul_of_nonneg_left (a.trans l) (by norm_num : (0 : ℝ) ≤ 0.0057755183)
  norm_num at this ⊢
  linarith

/-- Change of the longitude. -/
theorem lon_near (hp : p ∈ knownPlanets) (hE : p ≠ "Earth") (hc : HasTables p c)
    (h : |millennia jd| ≤ 5.9) {t s : ℝ} (wt : Window jd t) (ws : Window jd s) :
    |diffAngle (sep c earthTables t).lon (sep c earthTables s).lon| ≤ π / 2 * (0.0968 * |t - s| / 0.24) := by
  have et := window_era h wt
  have es := window_era h ws
  have l := sep_lip hp hc et es
  refine arctan2_near (by norm_num) (sep_bounds hp hE hc et).1 (sep_bounds hp hE hc es).1
    (by positivity) ?_
  have : ((sep c earthTables t).sub (sep c earthTables s)).norm ^ 2 ≤ (0.0968 * |t - s|) ^ 2 :=
    pow_le_pow_left₀ (norm_nonneg' _) l 2
  refine le_trans ?_ this
  unfold V3.norm
  rw [Real.sq_sqrt (by positivity)]
  simp only [V3.sub]
  linarith [sq_nonneg ((sep c earthTables t).z - (sep c earthTables s).z)]

/-- The loop, once it has a previous longitude. -/
theorem loop_near (hp : p ∈ knownPlanets) (hE : p ≠ "Earth") (hc : HasTables p c)
    (h : |millennia jd| ≤ 5.9) {x : ℝ} (wx : Window jd x) (ex : Emitted c earthTables jd x) (delta : ℝ) :
    ∀ (n : ℕ) (t s : ℝ), Window jd t → Window jd s →
      t = jd - lightDay * (sep c earthTables s).norm →
      π / 2 * (0.0968 * (0.00056 ^ n * |t - s|) / 0.24) < 2 * π * delta →
      ∃ t', Window jd t' ∧ |t' - x| ≤ |t - x| ∧
        geocentricLoop vsopDict jd p delta (n + 1) t (sep c earthTables s).lon =
          .ok ((sep c earthTables t').lon, (sep c earthTables t').lat) := by
  have hp0 := Real.pi_pos
  intro n
  induction n with
  | zero =>
    intro t s wt ws _ hd
    rw [pow_zero, one_mul] at hd
    refine ⟨t, wt, le_rfl, ?_⟩
    rw [loop_step hc, if_pos (lt_of_le_of_lt (lon_near hp hE hc h wt ws) hd)]
  | succ n ih =>
    intro t s wt ws e hd
    rw [loop_step hc]
    split_ifs with hs
    · exact ⟨t, wt, le_rfl, rfl⟩
    · have w1 := step_window hp hE hc h wt
      have c1 := step_contract hp hc h wt ws
      rw [← e] at c1
      have c2 := step_contract hp hc h wt wx
      rw [← show x = jd - lightDay * (sep c earthTables x).norm from ex] at c2
      obtain ⟨t', a1, a2, a3⟩ := ih _ t w1 wt rfl (by
        refine lt_of_le_of_lt ?_ hd
        have : (0.00056 : ℝ) ^ n * |jd - lightDay * (sep c earthTables t).norm - t| ≤
            0.00056 ^ (n + 1) * |t - s| := by
          rw [pow_succ, mul_assoc]
          exact mul_le_mul_of_nonneg_left c1 (by positivity)
        gcongr)
      refine ⟨t', a1, a2.trans (c2.trans ?_), a3⟩
      have := abs_nonneg (t - x)
      norm_num; linarith

/-- The start value -100 is far from every longitude. -/
theorem first_pass (v : V3) : 100 - 3 * π ≤ |diffAngle v.lon (-100)| ∧
    |diffAngle v.lon (-100)| ≤ 100 - π := by
  have hp := Real.pi_gt_three
  have hp4 := Real.pi_lt_four
  have a1 : -π < v.lon ∧ v.lon ≤ π := Complex.arg_mem_Ioc _
  unfold diffAngle pi2
  simp only
  rw [if_pos (by linarith : (-100 : ℝ) < v.lon), if_neg (by linarith),
    abs_of_nonpos (by linarith)]
  constructor <;> linarith

/-- There is exactly one time of emission. -/
theorem emitted_exists (hp : p ∈ knownPlanets) (hE : p ≠ "Earth") (hc : HasTables p c)
    (h : |millennia jd| ≤ 5.9) :
    ∃ x, Emitted c earthTables jd x ∧ jd - 0.2 ≤ x ∧ x ≤ jd ∧
      ∀ x', |millennia x'| ≤ 6 → Emitted c earthTables jd x' → x' = x := by
  have hE' : ∀ t, Window jd t → |millennia t| ≤ 6 := fun t w => window_era h w
  have cont : ContinuousOn (fun t => t + lightDay * (sep c earthTables t).norm)
      (Set.Icc (jd - 0.2) jd) := by
    refine continuousOn_id.add (ContinuousOn.mul continuousOn_const ?_)
    have lip : LipschitzOnWith ⟨0.0968, by norm_num⟩ (fun t => (sep c earthTables t).norm)
        (Set.Icc (jd - 0.2) jd) := by
      refine LipschitzOnWith.of_dist_le_mul fun t wt s ws => ?_
      rw [Real.dist_eq, Real.dist_eq]
      exact (abs_norm_sub _ _).trans (sep_lip hp hc (hE' t wt) (hE' s ws))
    exact lip.continuousOn
  have lo : Window jd (jd - 0.2) := ⟨le_rfl, by norm_num⟩
  have b1 := (sep_bounds hp hE hc (hE' _ lo)).2.2
  have b2 := norm_nonneg' (sep c earthTables jd)
  obtain ⟨x, wx, ex⟩ := intermediate_value_Icc (by norm_num : jd - 0.2 ≤ jd) cont
    (show jd ∈ Set.Icc _ _ from ⟨by simp only [lightDay]; norm_num at b1 ⊢; linarith, by
      simp only [lightDay]; norm_num; linarith⟩)
  simp only at ex
  have ex' : Emitted c earthTables jd x := by unfold Emitted; linarith
  refine ⟨x, ex', wx.1, wx.2, fun x' m' e' => ?_⟩
  have l := sep_lip hp hc m' (hE' x wx)
  have a := abs_norm_sub (sep c earthTables x') (sep c earthTables x)
  have d : x' - x = -(lightDay * ((sep c earthTables x').norm - (sep c earthTables x).norm)) := by
    unfold Emitted at e' ex'
    linarith
  have d2 := congrArg abs d
  rw [abs_neg, abs_mul] at d2
  have k : |lightDay| = 0.0057755183 := by unfold lightDay; rw [abs_of_pos]; norm_num
  rw [k] at d2
  have n := abs_nonneg (x' - x)
  have : |x' - x| = 0 := by
    have := mul_le_mul_of_nonneg_left (a.trans l) (by norm_num : (0 : ℝ) ≤ 0.0057755183)
    norm_num at this d2
    linarith
  rw [abs_eq_zero] at this
  linarith

/-- What the loop returns for any number of passes that is large enough for the precision. -/
theorem loop_converges (hp : p ∈ knownPlanets) (hE : p ≠ "Earth") (hc : HasTables p c)
    (h : |millennia jd| ≤ 5.9) {x : ℝ} (wx : Window jd x) (ex : Emitted c earthTables jd x) {delta : ℝ}
    (hd1 : delta ≤ 14) (n : ℕ) (hd : 0.0184 * 0.00056 ^ n < delta) :
    ∃ t', Window jd t' ∧ |t' - x| ≤ 0.00056 * |jd - x| ∧
      geocentricLoop vsopDict jd p delta (n + 2) jd (-100) =
        .ok ((sep c earthTables t').lon, (sep c earthTables t').lat) := by
  have hp0 := Real.pi_pos
  have hp4 := Real.pi_lt_d2
  have wj : Window jd jd := ⟨by norm_num, le_rfl⟩
  have w1 := step_window hp hE hc h wj
  have b := (sep_bounds hp hE hc (window_era h wj)).2.2
  have c2 := step_contract hp hc h wj wx
  rw [← show x = jd - lightDay * (sep c earthTables x).norm from ex] at c2
  rw [loop_step hc, if_neg (by
    rw [not_lt]
    refine le_trans ?_ (first_pass _).1
    have : 2 * π * delta ≤ 2 * π * 14 := by gcongr
    norm_num at hp4; linarith)]
  obtain ⟨t', a1, a2, a3⟩ := loop_near hp hE hc h wx ex delta n _ jd w1 wj rfl (by
    have : |jd - lightDay * (sep c earthTables jd).norm - jd| ≤ 0.182 := by
      have n0 := norm_nonneg' (sep c earthTables jd)
      rw [show ∀ a b : ℝ, a - b - a = -b by intros; ring, abs_neg]
      unfold lightDay
      rw [abs_of_nonneg (by positivity)]
      norm_num at b ⊢; linarith
    have k : π / 2 * (0.0968 * (0.00056 ^ n * |jd - lightDay * (sep c earthTables jd).norm - jd|) / 0.24) ≤
        π / 2 * (0.0968 * (0.00056 ^ n * 0.182) / 0.24) := by gcongr
    refine lt_of_le_of_lt k ?_
    rw [show π / 2 * (0.0968 * (0.00056 ^ n * 0.182) / 0.24) =
      2 * π * ((0.0968 * (0.00056 ^ n * 0.182) / 0.24) / 4) by ring]
    refine mul_lt_mul_of_pos_left (lt_of_le_of_lt ?_ hd) (by positivity)
    have : (0 : ℝ) ≤ 0.00056 ^ n := by positivity
    generalize (0.00056 : ℝ) ^ n = q at *
    norm_num; linarith)
  exact ⟨t', a1, a2.trans c2, a3⟩

/-- C49: for a precision of at least `1.1e-5` days (the library uses one second) three passes
suffice, as a comment in the code claims. -/
theorem geocentric_three_passes (hp : p ∈ knownPlanets) (hE : p ≠ "Earth") (hc : HasTables p c)
    (h : |millennia jd| ≤ 5.9) {delta : ℝ} (hd : 1.1e-5 ≤ delta) (hd1 : delta ≤ 14) :
    ∃ r, geocentricLoop vsopDict jd p delta 3 jd (-100) = .ok r ∧
      geocentricLoop vsopDict jd p delta 20 jd (-100) = .ok r := by
  obtain ⟨x, ex, x1, x2, -⟩ := emitted_exists hp hE hc h
  obtain ⟨t', -, -, a⟩ := loop_converges hp hE hc h ⟨x1, x2⟩ ex hd1 1 (by norm_num at hd ⊢; linarith)
  exact ⟨_, a, loop_mono hc 17 a⟩

/-- Latitude of a planet seen from the Earth. -/
theorem lat_bound (hp : p ∈ knownPlanets) (hE : p ≠ "Earth") (hc : HasTables p c) {t : ℝ}
    (ht : |millennia t| ≤ 6) :
    |tan (sep c earthTables t).lat| ≤ 0.6 ∧ |(sep c earthTables t).lat| ≤ 0.6 ∧
    sep c earthTables t = (direction (sep c earthTables t).lon (sep c earthTables t).lat).scale
      (sep c earthTables t).norm := by
  obtain ⟨b1, b2, -⟩ := sep_bounds hp hE hc ht
  generalize sep c earthTables t = v at *
  obtain ⟨x, y, z⟩ := v
  simp only at b1 b2
  have pos : 0 < x ^ 2 + y ^ 2 := lt_of_lt_of_le (by norm_num) b1
  have s0 : 0 < √(x ^ 2 + y ^ 2) := Real.sqrt_pos.mpr pos
  obtain ⟨d1, d2⟩ := direction_arctan2 x y z
  obtain ⟨q1, q2⟩ := arctan2_polar z (√(x ^ 2 + y ^ 2))
  have c0 := d2 pos
  have t : tan (V3.lat ⟨x, y, z⟩) = z / √(x ^ 2 + y ^ 2) := by
    unfold V3.lat
    simp only
    rw [tan_eq_sin_div_cos, div_eq_div_iff c0.ne' s0.ne']
    generalize arctan2 z √(x ^ 2 + y ^ 2) = b at *
    linear_combination (-sin b) * q1 + cos b * q2
  have t6 : |tan (V3.lat ⟨x, y, z⟩)| ≤ 0.6 := by
    rw [t, abs_div, abs_of_pos s0, div_le_iff₀ s0]; exact b2
  refine ⟨t6, ?_, d1.symm⟩
  have rng : |V3.lat ⟨x, y, z⟩| < π / 2 := by
    unfold V3.lat arctan2
    exact Complex.abs_arg_lt_pi_div_two_iff.mpr (Or.inl s0)
  obtain ⟨r1, r2⟩ := abs_lt.mp rng
  have e := Real.arctan_tan r1 r2
  rw [← e]
  refine le_trans ?_ t6
  have am : ∀ u : ℝ, 0 ≤ u → arctan u ≤ u := by
    intro u hu
    have := Real.le_tan (Real.arctan_nonneg.mpr hu) (Real.arctan_lt_pi_div_two u)
    rwa [Real.tan_arctan] at this
  generalize tan (V3.lat ⟨x, y, z⟩) = u
  rcases le_total 0 u with hu | hu
  · rw [abs_of_nonneg hu, abs_of_nonneg (Real.arctan_nonneg.mpr hu)]; exact am u hu
  · have := am (-u) (by linarith)
    rw [Real.arctan_neg] at this
    rw [abs_of_nonpos hu, abs_of_nonpos (Real.arctan_le_zero.mpr hu)]; exact this

theorem turnX_isometry (e : ℝ) (v w : V3) : ((turnX e v).sub (turnX e w)).norm = (v.sub w).norm := by
  unfold V3.norm
  congr 1
  simp only [turnX, V3.sub]
  linear_combination ((v.y - w.y) ^ 2 + (v.z - w.z) ^ 2) * sin_sq_add_cos_sq e

theorem direction_shift (l b l' b' d : ℝ) :
    ((direction (l + d) b).sub (direction (l' + d) b')).norm =
      ((direction l b).sub (direction l' b')).norm := by
  unfold V3.norm
  congr 1
  simp only [direction, V3.sub, cos_add, sin_add]
  linear_combination ((cos b * cos l - cos b' * cos l') ^ 2 + (cos b * sin l - cos b' * sin l') ^ 2) *
    sin_sq_add_cos_sq d

/-- C49: for every planet but the Earth, every time within 5900 years of J2000 and every precision from
`1e-50` to 14 days, `geocentric_planet` returns; there is exactly one time of emission `x`; the
direction returned is, to `1.56e-6` (0.33 arc seconds, mostly the FK5 correction), the direction from
the Earth to the planet at the time `x`, shifted in longitude by the nutation and turned to the
equator. -/
theorem geocentric_planet_accurate (hp : p ∈ knownPlanets) (hE : p ≠ "Earth") (hc : HasTables p c)
    (h : |millennia jd| ≤ 5.9) (deltaPsi epsilon delta : ℝ) (hd : 1e-50 ≤ delta) (hd1 : delta ≤ 14) :
    ∃ x l b ra dec, Emitted c earthTables jd x ∧
      (∀ x', |millennia x'| ≤ 6 → Emitted c earthTables jd x' → x' = x) ∧
      sep c earthTables x = (direction l b).scale (sep c earthTables x).norm ∧
      geocentricPlanet jd p deltaPsi epsilon delta = .ok (ra, dec) ∧
      0 ≤ ra ∧ ra < 2 * π ∧ -(π / 2) ≤ dec ∧ dec ≤ π / 2 ∧
      ((direction ra dec).sub (turnX epsilon (direction (l + deltaPsi) b))).norm ≤ 1.56e-6 := by
  obtain ⟨x, ex, x1, x2, xu⟩ := emitted_exists hp hE hc h
  obtain ⟨t, wt, tx, a⟩ := loop_converges hp hE hc h ⟨x1, x2⟩ ex hd1 18 (by
    refine lt_of_lt_of_le ?_ hd; norm_num)
  obtain ⟨t1, t2, t3⟩ := lat_bound hp hE hc (window_era h wt)
  obtain ⟨-, -, v3⟩ := lat_bound hp hE hc (window_era h ⟨x1, x2⟩)
  have l := sep_lip hp hc (window_era h wt) (window_era h ⟨x1, x2⟩)
  have b1 := (sep_bounds hp hE hc (window_era h ⟨x1, x2⟩)).1
  obtain ⟨-, -, ⟨d, f1, f2⟩, f3⟩ := vsop_to_fk5_small jd (sep c earthTables t).lon
    (sep c earthTables t).lat
  have nx : 0 < (sep c earthTables x).norm := by
    unfold V3.norm
    refine Real.sqrt_pos.mpr ?_
    norm_num at b1
    linarith [sq_nonneg (sep c earthTables x).z]
  have near := normalised_near t3 v3 (norm_direction _ _) nx
  have jx : |jd - x| = lightDay * (sep c earthTables x).norm := by
    have : jd - x = lightDay * (sep c earthTables x).norm := by
      have : x = jd - lightDay * (sep c earthTables x).norm := ex
      linarith
    rw [this, abs_of_nonneg]
    unfold lightDay; positivity
  have near2 : 2 * (((sep c earthTables t).sub (sep c earthTables x)).norm / (sep c earthTables x).norm) ≤
      6.3e-7 := by
    rw [← le_div_iff₀' (by norm_num), div_le_iff₀ nx]
    rw [jx] at tx
    unfold lightDay at tx
    have := mul_le_mul_of_nonneg_left tx (by norm_num : (0 : ℝ) ≤ 0.0968)
    norm_num at this l ⊢
    linarith
  refine ⟨x, (sep c earthTables x).lon, (sep c earthTables x).lat,
    (eclToEqu ((vsopToFk5 jd (sep c earthTables t).lon (sep c earthTables t).lat).1 + deltaPsi)
      (vsopToFk5 jd (sep c earthTables t).lon (sep c earthTables t).lat).2 epsilon).1,
    (eclToEqu ((vsopToFk5 jd (sep c earthTables t).lon (sep c earthTables t).lat).1 + deltaPsi)
      (vsopToFk5 jd (sep c earthTables t).lon (sep c earthTables t).lat).2 epsilon).2,
    ex, xu, v3, ?_, ?_⟩
  · unfold geocentricPlanet
    rw [show (20 : ℕ) = 18 + 2 from rfl, a]
    rfl
  · set l' := (vsopToFk5 jd (sep c earthTables t).lon (sep c earthTables t).lat).1 with hl'
    set b' := (vsopToFk5 jd (sep c earthTables t).lon (sep c earthTables t).lat).2 with hb'
    obtain ⟨r1, r2, r3, r4⟩ := ecl_to_equ_range (l' + deltaPsi) b' epsilon
    refine ⟨r1, r2, r3, r4, ?_⟩
    have hp4 := Real.pi_lt_d2
    have hp3 := Real.pi_gt_three
    have f2' : |d| ≤ 6.03e-7 := by
      have : arcsec (0.09033 + 0.0554 * |tan (sep c earthTables t).lat|) ≤ arcsec 0.124 := by
        rw [arcsec_le]; norm_num at t1 ⊢; linarith
      refine (f2.trans this).trans ?_
      unfold arcsec; norm_num at hp4 ⊢; linarith
    have f3' : |b' - (sep c earthTables t).lat| ≤ 2.7e-7 := by
      refine f3.trans ?_
      unfold arcsec; norm_num at hp4 ⊢; linarith
    have cb : 0 < cos b' := by
      refine cos_pos_of_mem_Ioo ?_
      obtain ⟨k1, k2⟩ := abs_le.mp f3'
      obtain ⟨k3, k4⟩ := abs_le.mp t2
      norm_num at k1 k2 k3 k4
      constructor <;> linarith
    rw [ecl_to_equ_rotates _ _ _ cb, turnX_isometry, direction_shift]
    have tri := norm_triangle (direction l' b')
      (direction (sep c earthTables t).lon (sep c earthTables t).lat)
      (direction (sep c earthTables x).lon (sep c earthTables x).lat)
    have dl : ((direction l' b').sub
        (direction (sep c earthTables t).lon (sep c earthTables t).lat)).norm ≤ 6.03e-7 + 2.7e-7 := by
      rw [direction_congr f1 (congr_refl b')]
      refine (direction_lip _ _ _ _).trans ?_
      rw [add_sub_cancel_left]
      exact add_le_add f2' f3'
    norm_num at dl near near2 ⊢
    linarith

end

/-- C49: whatever the table, a precision of at most zero ends in "bailout". -/
theorem geocentric_delta_nonpos {p : String} {c : Tables} (hc : HasTables p c) (jd deltaPsi epsilon : ℝ)
    {delta : ℝ} (hd : delta ≤ 0) :
    geocentricPlanet jd p deltaPsi epsilon delta = .error (.Error "planets" "bailout") := by
  have hp := Real.pi_pos
  have : ∀ n t l0, geocentricLoop vsopDict jd p delta n t l0 = .error (.Error "planets" "bailout") := by
    intro n
    induction n with
    | zero => intro t l0; rfl
    | succ n ih =>
      intro t l0
      rw [loop_step hc, if_neg, ih]
      rw [not_lt]
      refine le_trans ?_ (abs_nonneg _)
      exact mul_nonpos_of_nonneg_of_nonpos (by positivity) hd
  unfold geocentricPlanet
  rw [this]
  rfl

/-- C49: a precision of 15.5 days or more makes the first test succeed, so that neither light-time nor
aberration is taken into account. -/
theorem geocentric_coarse {p : String} {c : Tables} (hc : HasTables p c) (jd deltaPsi epsilon : ℝ)
    {delta : ℝ} (hd : 15.5 ≤ delta) :
    geocentricPlanet jd p deltaPsi epsilon delta = .ok (eclToEqu
      ((vsopToFk5 jd (sep c earthTables jd).lon (sep c earthTables jd).lat).1 + deltaPsi)
      (vsopToFk5 jd (sep c earthTables jd).lon (sep c earthTables jd).lat).2 epsilon) := by
  have hp := Real.pi_gt_d2
  unfold geocentricPlanet
  rw [loop_step hc, if_pos]
  · rfl
  · refine lt_of_le_of_lt (first_pass _).2 ?_
    have : 2 * π * 15.5 ≤ 2 * π * delta := by gcongr
    norm_num at hp this; linarith

/-- C49: an unknown planet raises `KeyError`. -/
theorem geocentric_unknown (jd deltaPsi epsilon delta : ℝ) {p : String} (h : p ∉ knownPlanets) :
    geocentricPlanet jd p deltaPsi epsilon delta = .error (.KeyError p) := by
  have e : helioScalars vsopDict jd p = .error (.KeyError p) := by
    unfold helioScalars vsopDimension3
    rw [(vsop_dimension_unknown [jd] p "L").mp (fun a => h a.1)]
    rfl
  unfold geocentricPlanet
  rw [geocentricLoop, helioScalars_value earth_hasTables, e]
  rfl

/-- C49: the Earth is accepted; for every time and every precision in range the same two directions
are returned as for an object at the equinox of date, although the Earth seen from its own centre has
no direction. -/
theorem geocentric_earth (jd deltaPsi epsilon delta : ℝ) (hd : 0 < delta) :
    geocentricPlanet jd "Earth" deltaPsi epsilon delta = .ok (eclToEqu
      ((vsopToFk5 jd 0 0).1 + deltaPsi) (vsopToFk5 jd 0 0).2 epsilon) := by
  have hp := Real.pi_pos
  have z : ∀ t, sep earthTables earthTables t = ⟨0, 0, 0⟩ := by intro t; simp [sep, V3.sub]
  have a0 : arctan2 0 0 = 0 := by
    unfold arctan2
    exact Complex.arg_zero
  have l0 : V3.lon ⟨0, 0, 0⟩ = 0 := a0
  have b0 : V3.lat ⟨0, 0, 0⟩ = 0 := by unfold V3.lat; simp [a0]
  have d0 : |diffAngle 0 0| < 2 * π * delta := by
    unfold diffAngle
    simp only [lt_irrefl, if_false, sub_zero]
    rw [if_neg (by linarith)]
    simp; positivity
  have : geocentricLoop vsopDict jd "Earth" delta 20 jd (-100) = .ok (0, 0) := by
    rw [loop_step earth_hasTables, z, l0, b0]
    split_ifs
    · rfl
    · rw [loop_step earth_hasTables, z, l0, b0, if_pos d0]
  unfold geocentricPlanet
  rw [this]
  rfl

/-! ### The hypotheses are met -/

theorem hasTables_venus : HasTables "Venus" ⟨Data.venusL, Data.venusB, Data.venusR⟩ := by
  unfold HasTables vsopDict
  simp only [List.lookup, show ∀ a b c d : String, ((a, b) == (c, d)) = (a == c && b == d) from
    fun _ _ _ _ => rfl]
  simp

example : "Venus" ∈ knownPlanets ∧ "Venus" ≠ "Earth" ∧ |millennia 2448976.5| ≤ 5.9 := by
  refine ⟨by decide, by decide, ?_⟩
  norm_num [millennia, abs_of_neg]

/-- Every known planet has tables. -/
theorem hasTables_of_known {p : String} (h : p ∈ knownPlanets) : ∃ c, HasTables p c := by
  have k : ∀ d ∈ ["L", "B", "R"], ∃ c, vsopDict.lookup (p, d) = some c := fun d hd =>
    Option.isSome_iff_exists.mp ((vsopDict_lookup_iff p d).mpr ⟨h, hd⟩)
  obtain ⟨a, ha⟩ := k "L" (by simp)
  obtain ⟨b, hb⟩ := k "B" (by simp)
  obtain ⟨r, hr⟩ := k "R" (by simp)
  exact ⟨⟨a, b, r⟩, ha, hb, hr⟩

end Verif

import Verif.Lemmas.PointSun
import Verif.Props.Equinox

/-!
# An event near one result of `equinox_approx`

For the results of largest error, the longitude of the Sun is evaluated 0.0015 day away from the result.
-/

namespace Verif
open Real

set_option exponentiation.threshold 500

/-! ## Definitions evaluated by the kernel -/

/-- Check of one event.  The polynomial of `equinox_approx` has the value `N` in units of `1e-17` day
since J2000, the longitude is `r` right angles and a half turn. The time `u` is 0.0015 day after
(`s = true`) or before the result; by then, the longitude has passed (not yet reached) its value. -/
noncomputable def ptOK (thr m : ℕ) (N r u : ℤ) (s : Bool) : Bool :=
  bsel (Nat.ble (Int.natAbs u) 3000000000000) (bsel (Nat.ble (Int.natAbs r) 20000)
  (islet (Int.ediv N 36525000000) fun w => pdN w corrRows fun vs => pdN w denRows fun vd =>
  islet (Int.add N (Int.ediv (Int.mul 10000000000000000 vs)
    (Int.add 3402823669209384634633746074317682114560000 vd))) fun x =>
  islet (Int.sub x (Int.mul u 36525000000)) fun D =>
  islet (bsel s D (Int.neg D)) fun D => slet false (Int.toNat (Int.add D 150000000000000)) fun D =>
  bsel (Nat.ble 1000000000 D) (bsel (Nat.ble D 1000000000000)
  (lamN thr u fun l => islet (Int.sub l (Int.mul r 53451429203248337392984018658093539165032038283745)) fun g =>
    islet (bsel s g (Int.neg g)) fun g => slet false (Int.toNat g) fun g =>
    bsel (Nat.ble (Nat.shiftLeft m 128) g)
      (Nat.ble g 680564733841876926926749214863536422912000000) false) false) false) false) false

/-- Check of the event `j` of a block. -/
noncomputable def ptBlk (thr m : ℕ) (a b c d e z h : ℤ) (j : ℕ) (u : ℤ) (s : Bool) : Bool :=
  islet (Int.add z (Int.ofNat j)) fun y =>
  islet (Int.add (Int.mul (Int.add (Int.mul (Int.add (Int.mul (Int.add (Int.mul e y) d) y) c) y) b) y) a) fun N =>
  islet (Int.add h (Int.ofNat (Nat.mul 4 j))) fun k => ptOK thr m N k u s

/-! ## Correctness -/

theorem point_corr {u : ℝ} {vs vd : ℤ} (hs : |(vs : ℝ) / 2 ^ 128 - degS corrRows u| ≤ 1e-10)
    (hd : |(vd : ℝ) / 2 ^ 128 - degS denRows u| ≤ 1e-10) :
    |((10000000000000000 * vs / (3402823669209384634633746074317682114560000 + vd) : ℤ) : ℝ) -
      10 ^ 12 * (degS corrRows u / (1 + degS denRows u / 10 ^ 4))| ≤ 1000 := by
  have d1 := den_pos u
  have s := corr_abs u
  generalize degS corrRows u = S at *
  generalize degS denRows u = D at *
  obtain ⟨y, hy⟩ : ∃ y, y = (vs : ℝ) / 2 ^ 128 := ⟨_, rfl⟩
  obtain ⟨w, hw⟩ : ∃ w, w = (vd : ℝ) / 2 ^ 128 := ⟨_, rfl⟩
  rw [← hy] at hs
  rw [← hw] at hd
  have ey : (vs : ℝ) = y * 2 ^ 128 := by rw [hy]; field_simp
  have ew : (vd : ℝ) = w * 2 ^ 128 := by rw [hw]; field_simp
  obtain ⟨q, hq⟩ : ∃ q, q = 1 + D / 10 ^ 4 := ⟨_, rfl⟩
  rw [← hq] at d1 ⊢
  have q0 : 0 < q := lt_of_lt_of_le (by norm_num) d1
  obtain ⟨w1, w2⟩ := abs_le.1 hd
  have eD : D = 10 ^ 4 * (q - 1) := by rw [hq]; ring
  have r1 : 9650 ≤ 10 ^ 4 + w := by rw [eD] at w1; norm_num at w1 d1 ⊢; linarith
  have r0 : 0 < 10 ^ 4 + w := lt_of_lt_of_le (by norm_num) r1
  have pos : (0 : ℤ) < 3402823669209384634633746074317682114560000 + vd := by
    have : (0 : ℝ) < ((3402823669209384634633746074317682114560000 + vd : ℤ) : ℝ) := by
      push_cast
      rw [ew, show (3402823669209384634633746074317682114560000 : ℝ) + w * 2 ^ 128 = (10 ^ 4 + w) * 2 ^ 128 by
        norm_num; ring]
      positivity
    exact_mod_cast this
  have f := ediv_near (10000000000000000 * vs) pos
  have e : ((10000000000000000 * vs : ℤ) : ℝ) / ((3402823669209384634633746074317682114560000 + vd : ℤ) : ℝ) =
      10 ^ 16 * y / (10 ^ 4 + w) := by
    push_cast
    rw [ew, ey, show (3402823669209384634633746074317682114560000 : ℝ) + w * 2 ^ 128 = (10 ^ 4 + w) * 2 ^ 128 by
      norm_num; ring]
    field_simp
    norm_num
    ring
  rw [e] at f
  generalize ((10000000000000000 * vs / (3402823669209384634633746074317682114560000 + vd) : ℤ) : ℝ) = z at *
  have e2 : 10 ^ 16 * y / (10 ^ 4 + w) - 10 ^ 12 * (S / q) =
      10 ^ 16 * ((y - S) / (10 ^ 4 + w)) + 10 ^ 12 * (S * (D - w) / ((10 ^ 4 + w) * q)) := by
    rw [eD]
    field_simp
    ring
  have a1 : |(y - S) / (10 ^ 4 + w)| ≤ 1e-10 / 9650 := by
    rw [abs_div, abs_of_pos r0]
    exact div_le_div₀ (by norm_num) hs (by norm_num) r1
  have a2 : |S * (D - w) / ((10 ^ 4 + w) * q)| ≤ 1978 * 1e-10 / (9650 * 0.9659) := by
    rw [abs_div, abs_of_pos (mul_pos r0 q0), abs_mul, abs_sub_comm D w]
    exact div_le_div₀ (by norm_num) (mul_le_mul s hd (abs_nonneg _) (by norm_num)) (by norm_num)
      (mul_le_mul r1 d1 (by norm_num) r0.le)
  have t := abs_sub_le z (10 ^ 16 * y / (10 ^ 4 + w)) (10 ^ 12 * (S / q))
  rw [e2] at t
  have t2 := abs_add_le (10 ^ 16 * ((y - S) / (10 ^ 4 + w))) (10 ^ 12 * (S * (D - w) / ((10 ^ 4 + w) * q)))
  rw [abs_mul, abs_mul, abs_of_pos (by norm_num : (0 : ℝ) < 10 ^ 16),
    abs_of_pos (by norm_num : (0 : ℝ) < 10 ^ 12)] at t2
  norm_num at a1 a2 t t2 f ⊢
  linarith

theorem toNat_bounds {v : ℤ} {a b : ℕ} (h : Nat.ble a v.toNat = true) (h' : Nat.ble v.toNat b = true)
    (ha : 0 < a) : (a : ℤ) ≤ v ∧ v ≤ b := by
  have := Nat.le_of_ble_eq_true h
  have := Nat.le_of_ble_eq_true h'
  omega

theorem bsel_false {b x : Bool} (h : bsel b x false = true) : b = true ∧ x = true := by
  cases b
  · exact absurd h (by simp [bsel_eq])
  · exact ⟨rfl, h⟩

theorem sunLambda_mono {x y : ℝ} (hx : |millennia x| ≤ 6) (hy : |millennia y| ≤ 6) (h : sunLambda x ≤ sunLambda y) :
    x ≤ y := by
  by_contra c
  rw [not_le] at c
  have r := sunLambda_rate hx hy
  have m : 0 < millennia x - millennia y := by
    rw [show millennia x - millennia y = (x - y) / 365250 by unfold millennia; ring]
    apply div_pos <;> linarith
  rw [abs_of_pos m, abs_le] at r
  linarith [r.1]

/-- The event lies within 0.001499995 day. -/
theorem point_event {thr m : ℕ} {N r u : ℤ} {s : Bool} (ht : Tier thr m) (h : ptOK thr m N r u s = true) {jd : ℝ} (hjd : jd = N / 10 ^ 17 + 2451545) :
    |millennia (jd + equinoxCorrection jd)| ≤ 5.9 ∧
    ∃ x, |x - (jd + equinoxCorrection jd)| ≤ 0.001499995 ∧ sunLambda x = r * (π / 2) + π := by
  unfold ptOK at h
  obtain ⟨hu, h⟩ := bsel_false h
  obtain ⟨hr, h⟩ := bsel_false h
  have hu := Nat.le_of_ble_eq_true hu
  have hr := Nat.le_of_ble_eq_true hr
  have hu' : |(u : ℝ)| ≤ 3e12 := by
    rw [← Int.cast_abs, Int.abs_eq_natAbs]
    have : ((u.natAbs : ℕ) : ℝ) ≤ (3000000000000 : ℕ) := by exact_mod_cast hu
    norm_num at this ⊢
    exact this
  have hr' : |(r : ℝ)| ≤ 20000 := by
    rw [← Int.cast_abs, Int.abs_eq_natAbs]
    have : ((r.natAbs : ℕ) : ℝ) ≤ (20000 : ℕ) := by exact_mod_cast hr
    norm_num at this ⊢
    exact this
  obtain ⟨vs, es, bs⟩ := pdN_spec (N / 36525000000) corrRows
  obtain ⟨vd, ed, bd⟩ := pdN_spec (N / 36525000000) denRows
  obtain ⟨l, el, bl⟩ := lamN_spec ht hu'
  simp only [islet_eq, int_div, es, ed, int_add, int_sub, int_mul, el, slet_eq] at h
  clear es ed el
  obtain ⟨h1, h⟩ := bsel_false h
  obtain ⟨h2, h⟩ := bsel_false h
  obtain ⟨h3, h4⟩ := bsel_false h
  have k1 := toNat_bounds h1 h2 (by norm_num)
  have hm : 720 ≤ m := by unfold Tier at ht; omega
  rw [show Nat.shiftLeft m 128 = m * 2 ^ 128 from Nat.shiftLeft_eq m 128] at h3
  have k2 := toNat_bounds h3 h4 (by positivity)
  clear h h1 h2 h3 h4 hu hr
  -- the result of the function
  have A1 : degA corrRows ≤ 3000 := by decide +kernel
  have A2 : degA denRows ≤ 3000 := by decide +kernel
  have A1' : (degA corrRows : ℝ) ≤ 3000 := by exact_mod_cast A1
  have A2' : (degA denRows : ℝ) ≤ 3000 := by exact_mod_cast A2
  have small : ∀ x : ℝ, x ≤ 3000 → 3e-18 * x ≤ 1e-10 := by
    intro x hx; norm_num; linarith
  have cu := point_corr (bs.trans (small _ A1')) (bd.trans (small _ A2'))
  have fl := ediv_near N (b := 36525000000) (by norm_num)
  have cl := corr_lip ((N / 36525000000 : ℤ) : ℝ) (N / 36525000000)
  have c4 : equinoxCorrection jd = 0.00001 * (degS corrRows (N / 36525000000) /
      (1 + degS denRows (N / 36525000000) / 10 ^ 4)) := by
    rw [corr_eq, show jcent jd * 10 ^ 11 = N / 36525000000 by rw [hjd]; unfold jcent; ring, mul_div_assoc]
  obtain ⟨v, hv⟩ : ∃ v : ℤ, v = 10000000000000000 * vs / (3402823669209384634633746074317682114560000 + vd) := ⟨_, rfl⟩
  rw [← hv] at cu k1
  have near : |(jd + equinoxCorrection jd) - ((N + v : ℝ) / 10 ^ 17 + 2451545)| ≤ 5e-10 := by
    rw [c4, hjd]
    push_cast at fl
    generalize degS corrRows ((N / 36525000000 : ℤ) : ℝ) / (1 + degS denRows ((N / 36525000000 : ℤ) : ℝ) / 10 ^ 4) = g at *
    generalize degS corrRows (N / 36525000000) / (1 + degS denRows (N / 36525000000) / 10 ^ 4) = g' at *
    generalize |((N / 36525000000 : ℤ) : ℝ) - N / 36525000000| = f at *
    have cl : |g - g'| ≤ 2.105e-5 := cl.trans (by norm_num; linarith)
    rw [abs_le] at *
    norm_num at cu cl ⊢
    constructor <;> linarith [cu.1, cu.2, cl.1, cl.2]
  clear cu fl cl c4 bs bd hv hjd
  generalize jd + equinoxCorrection jd = A at *
  obtain ⟨p, hp⟩ : ∃ p : ℝ, p = u * 1e-12 * 365250 + 2451545 := ⟨_, rfl⟩
  rw [← hp] at bl
  have mp : |millennia p| ≤ 3 := by
    rw [show millennia p = u * 1e-12 by rw [hp]; unfold millennia; ring, abs_mul,
      abs_of_pos (by norm_num : (0 : ℝ) < 1e-12)]
    norm_num at hu' ⊢; linarith
  -- the right angles
  have pi4 : |(r : ℝ) * 53451429203248337392984018658093539165032038283745 / 2 ^ 128 - 10 ^ 11 * (r * (π / 2))| ≤ 0.01 := by
    rw [show (r : ℝ) * 53451429203248337392984018658093539165032038283745 / 2 ^ 128 - 10 ^ 11 * (r * (π / 2)) =
      r * (53451429203248337392984018658093539165032038283745 / 2 ^ 128 - 10 ^ 11 * (π / 2)) by ring, abs_mul]
    have q : |53451429203248337392984018658093539165032038283745 / 2 ^ 128 - 10 ^ 11 * (π / 2)| ≤ 1e-7 := by
      have p1 := pi_gt_d20
      have p2 := pi_lt_d20
      rw [abs_le]; norm_num at p1 p2 ⊢; constructor <;> linarith
    refine (mul_le_mul hr' q (abs_nonneg _) (by norm_num)).trans (by norm_num)
  obtain ⟨n1, n2⟩ := abs_le.1 near
  obtain ⟨b1, b2⟩ := abs_le.1 bl
  obtain ⟨q1, q2⟩ := abs_le.1 pi4
  -- in both cases
  have main : ∃ σ : ℝ, (σ = 1 ∨ σ = -1) ∧ (1000000000 ≤ σ * ((N + v : ℝ) - u * 36525000000) + 150000000000000 ∧
      σ * ((N + v : ℝ) - u * 36525000000) + 150000000000000 ≤ 1000000000000) ∧
      m ≤ σ * ((l : ℝ) / 2 ^ 128 - r * 53451429203248337392984018658093539165032038283745 / 2 ^ 128) ∧
      σ * ((l : ℝ) / 2 ^ 128 - r * 53451429203248337392984018658093539165032038283745 / 2 ^ 128) ≤ 2000000 := by
    have g1 : (m : ℝ) = (m * 2 ^ 128) / 2 ^ 128 := by field_simp
    have g2 : (2000000 : ℝ) = 680564733841876926926749214863536422912000000 / 2 ^ 128 := by norm_num
    have p0 : (0 : ℝ) < 2 ^ 128 := by norm_num
    cases s
    · refine ⟨-1, Or.inr rfl, ?_, ?_, ?_⟩
      · have h1 : (1000000000 : ℤ) ≤ -(N + v - u * 36525000000) + 150000000000000 := k1.1
        have h2 : -(N + v - u * 36525000000) + 150000000000000 ≤ (1000000000000 : ℤ) := k1.2
        have h1' : (1000000000 : ℝ) ≤ -(N + v - u * 36525000000) + 150000000000000 := by exact_mod_cast h1
        have h2' : -(N + v - u * 36525000000) + 150000000000000 ≤ (1000000000000 : ℝ) := by exact_mod_cast h2
        constructor <;> linarith
      · have h1 : ((m * 2 ^ 128 : ℕ) : ℤ) ≤ -(l - r * 53451429203248337392984018658093539165032038283745) := k2.1
        have h1' : (m * 2 ^ 128 : ℝ) ≤ -(l - r * 53451429203248337392984018658093539165032038283745) := by exact_mod_cast h1
        rw [g1, show (-1 : ℝ) * ((l : ℝ) / 2 ^ 128 - r * 53451429203248337392984018658093539165032038283745 / 2 ^ 128) = -(l - r * 53451429203248337392984018658093539165032038283745) / 2 ^ 128 by ring]
        exact div_le_div_of_nonneg_right h1' p0.le
      · have h1 : -(l - r * 53451429203248337392984018658093539165032038283745) ≤ (680564733841876926926749214863536422912000000 : ℤ) := k2.2
        have h1' : -(l - r * 53451429203248337392984018658093539165032038283745) ≤ (680564733841876926926749214863536422912000000 : ℝ) := by exact_mod_cast h1
        rw [g2, show (-1 : ℝ) * ((l : ℝ) / 2 ^ 128 - r * 53451429203248337392984018658093539165032038283745 / 2 ^ 128) = -(l - r * 53451429203248337392984018658093539165032038283745) / 2 ^ 128 by ring]
        exact div_le_div_of_nonneg_right h1' p0.le
    · refine ⟨1, Or.inl rfl, ?_, ?_, ?_⟩
      · have h1 : (1000000000 : ℤ) ≤ (N + v - u * 36525000000) + 150000000000000 := k1.1
        have h2 : (N + v - u * 36525000000) + 150000000000000 ≤ (1000000000000 : ℤ) := k1.2
        have h1' : (1000000000 : ℝ) ≤ (N + v - u * 36525000000) + 150000000000000 := by exact_mod_cast h1
        have h2' : (N + v - u * 36525000000) + 150000000000000 ≤ (1000000000000 : ℝ) := by exact_mod_cast h2
        constructor <;> linarith
      · have h1 : ((m * 2 ^ 128 : ℕ) : ℤ) ≤ l - r * 53451429203248337392984018658093539165032038283745 := k2.1
        have h1' : (m * 2 ^ 128 : ℝ) ≤ l - r * 53451429203248337392984018658093539165032038283745 := by exact_mod_cast h1
        rw [g1, show (1 : ℝ) * ((l : ℝ) / 2 ^ 128 - r * 53451429203248337392984018658093539165032038283745 / 2 ^ 128) = (l - r * 53451429203248337392984018658093539165032038283745) / 2 ^ 128 by ring]
        exact div_le_div_of_nonneg_right h1' p0.le
      · have h1 : l - r * 53451429203248337392984018658093539165032038283745 ≤ (680564733841876926926749214863536422912000000 : ℤ) := k2.2
        have h1' : l - r * 53451429203248337392984018658093539165032038283745 ≤ (680564733841876926926749214863536422912000000 : ℝ) := by exact_mod_cast h1
        rw [g2, show (1 : ℝ) * ((l : ℝ) / 2 ^ 128 - r * 53451429203248337392984018658093539165032038283745 / 2 ^ 128) = (l - r * 53451429203248337392984018658093539165032038283745) / 2 ^ 128 by ring]
        exact div_le_div_of_nonneg_right h1' p0.le
  obtain ⟨σ, hσ, ⟨d1, d2⟩, e1, e2⟩ := main
  have hmR : (720 : ℝ) ≤ m := by exact_mod_cast hm
  have hv : |r * (π / 2) + π - sunLambda p| ≤ 4e-5 := by
    rcases hσ with rfl | rfl <;> (rw [abs_le]; norm_num at *; constructor <;> linarith)
  have mp59 : |millennia p| ≤ 5.9 := mp.trans (by norm_num)
  obtain ⟨x, x1, x2, x3⟩ := event_exists p _ mp59 (hv.trans (by have := pi_gt_three; norm_num; linarith))
  have hxm : |millennia x| ≤ 6 := by
    have t := abs_add_le (millennia p) ((x - p) / 365250)
    rw [show millennia p + (x - p) / 365250 = millennia x by unfold millennia; ring, abs_div,
      abs_of_pos (by norm_num : (0 : ℝ) < 365250)] at t
    have : |x - p| / 365250 ≤ 1 := by rw [div_le_one (by norm_num)]; linarith
    linarith
  have x3 : |x - p| ≤ 0.0025 := by
    refine x3.trans ?_
    rw [div_le_iff₀ (by norm_num)]
    have k : kSunMotion ≤ 58.15 := by
      rw [kSunMotion_eq, div_le_iff₀ (by positivity)]
      have := Real.pi_gt_d6
      norm_num at this ⊢; linarith
    have := mul_le_mul k hv (abs_nonneg _) (by norm_num)
    norm_num at this ⊢; linarith
  have hpu : p = u * 36525000000 / 10 ^ 17 + 2451545 := by rw [hp]; ring
  have pA : |p - A| ≤ 1 := by
    rw [hpu, abs_le]
    rcases hσ with rfl | rfl <;> (norm_num at *; constructor <;> linarith)
  constructor
  · have t := abs_add_le (millennia p) ((A - p) / 365250)
    rw [show millennia p + (A - p) / 365250 = millennia A by unfold millennia; ring, abs_div,
      abs_of_pos (by norm_num : (0 : ℝ) < 365250), abs_sub_comm A p] at t
    have : |p - A| / 365250 ≤ 1 := by rw [div_le_one (by norm_num)]; linarith
    norm_num at t ⊢; linarith
  · refine ⟨x, ?_, x2⟩
    have mp6 : |millennia p| ≤ 6 := by linarith
    rw [abs_le] at x3 ⊢
    rcases hσ with rfl | rfl
    · have o := sunLambda_mono hxm mp6 (by rw [x2]; norm_num at *; linarith)
      norm_num at *
      constructor <;> linarith [x3.1, x3.2]
    · have o := sunLambda_mono mp6 hxm (by rw [x2]; norm_num at *; linarith)
      norm_num at *
      constructor <;> linarith [x3.1, x3.2]

theorem ptBlk_event {thr m : ℕ} (ht : Tier thr m) {a b c d e z h : ℤ} {j : ℕ} {u : ℤ} {s : Bool}
    (H : ptBlk thr m a b c d e z h j u s = true) {jd : ℝ}
    (hjd : jd = ((((e * (z + j) + d) * (z + j) + c) * (z + j) + b) * (z + j) + a : ℤ) / 10 ^ 17 + 2451545) :
    |millennia (jd + equinoxCorrection jd)| ≤ 5.9 ∧
    ∃ x, |x - (jd + equinoxCorrection jd)| ≤ 0.001499995 ∧ sunLambda x = (h + 4 * j : ℤ) * (π / 2) + π := by
  unfold ptBlk at H
  simp only [islet_eq] at H
  exact point_event ht H hjd

/-- The event `j` of a block passes the check. -/
def HasPoint (a b c d e z h : ℤ) (j : ℕ) : Prop :=
  ∃ thr m u s, Tier thr m ∧ ptBlk thr m a b c d e z h j u s = true

theorem tier0 : Tier 50 940 := by unfold Tier; decide +kernel

theorem tier1 : Tier 1000 204300 := by unfold Tier; decide +kernel

theorem tier2 : Tier 5000 671300 := by unfold Tier; decide +kernel

end Verif

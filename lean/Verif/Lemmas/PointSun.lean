import Verif.Lemmas.PointNat
import Verif.Lemmas.LaneReal

/-!
# The apparent longitude of the Sun at one time

The time is an integer `u` in units of `1e-12` millennium since J2000.
-/

namespace Verif
open Real

set_option exponentiation.threshold 500

/-! ## Definitions evaluated by the kernel -/

/-- A polynomial of degree four, each term rounded down. -/
noncomputable def argI (c n1 d1 n2 d2 n3 d3 n4 d4 u : ℤ) (K : ℤ → Bool) : Bool :=
  islet (Int.mul u u) fun v => islet (Int.mul v u) fun w => islet (Int.mul v v) fun x =>
  islet (Int.add (Int.add (Int.add (Int.add c (Int.ediv (Int.mul n1 u) d1)) (Int.ediv (Int.mul n2 v) d2))
    (Int.ediv (Int.mul n3 w) d3)) (Int.ediv (Int.mul n4 x) d4)) K

/-- The five arguments of the nutation in units of `1e-12` degree. -/
noncomputable def withArgs (u : ℤ) (K : Lin → Bool) : Bool :=
  argI 297850192100000 4452671114034 1000000 (-18819) 100000000000000000
    1 545868000000000000000000000 (-1) 11306500000000000000000000000000000000000 u fun aD =>
  argI 357529109200000 359990502909 1000000 (-1536) 100000000000000000
    1 24490000000000000000000000000 0 1 u fun aM =>
  argI 134963396400000 4771988675055 1000000 87414 100000000000000000
    1 69699000000000000000000000 (-1) 1471200000000000000000000000000000000000 u fun aP =>
  argI 93272095000000 4832020175233 1000000 (-36539) 100000000000000000
    (-1) 3526000000000000000000000000 1 86331000000000000000000000000000000000000 u fun aF =>
  argI 125044547900000 (-19341362891) 1000000 20754 100000000000000000
    1 467441000000000000000000000 1 6061600000000000000000000000000000000000 u fun aO =>
  K ⟨aD, 0, aM, 0, aP, 0, aF, 0, aO, 0⟩

/-- The rows of the nutation in longitude, in units of `1e-4` second. -/
def nutAll0 (q : Lin) : List DRow := Data.nutationTable.map fun r : NutRow => nutRow q r.2.2.2.2.2.1 r

/-- The rows of its secular part, in units of `1e-4` second per millennium. -/
def nutAll1 (q : Lin) : List DRow := Data.nutationTable.map fun r : NutRow => nutRow q r.2.2.2.2.2.2.1 r

/-- The apparent longitude of the Sun, less a half turn, in units of `1e-11 / 2 ^ 128`; only the terms
of the longitude from `thr` are used. -/
noncomputable def lamN (thr : ℕ) (u : ℤ) (K : ℤ → Bool) : Bool :=
  ptN thr u (tail1 (tail0 Data.earthL)) 1 fun h => ptN 100000 u Data.earthR 1 fun R =>
  withArgs u fun q => pdN u (nutAll0 q) fun n0 => pdN u (nutAll1 q) fun n1 =>
  islet (Int.add n0 (Int.ediv (Int.mul u n1) 1000000000000)) fun n =>
  islet (Int.ediv (Int.mul (Int.sub (Int.mul 10 n) 3073770620396837140464662828931162254082048)
    4848136811095360) 1000000000000000) fun n =>
  islet (Int.ediv (Int.mul 213810288856924638045060549074782479844232054645456896 u) 1000000000000) fun m =>
  islet (Int.ediv 115024797163532619286834780107394300096450295892532278978346068315505456527360140615625551726510
    R) fun g =>
  islet (Int.sub (Int.add (Int.add (Int.add h 59667507734202341132934789052046705805324753829888) m) n) g) K

/-! ## Correctness -/

theorem argI_spec (c n1 d1 n2 d2 n3 d3 n4 d4 u : ℤ) (h1 : 0 < d1) (h2 : 0 < d2) (h3 : 0 < d3)
    (h4 : 0 < d4) : ∃ v : ℤ, (∀ K, argI c n1 d1 n2 d2 n3 d3 n4 d4 u K = K v) ∧
      |(v : ℝ) - (c + n1 * u / d1 + n2 * u ^ 2 / d2 + n3 * u ^ 3 / d3 + n4 * u ^ 4 / d4)| ≤ 4 := by
  refine ⟨c + n1 * u / d1 + n2 * (u * u) / d2 + n3 * (u * u * u) / d3 + n4 * (u * u * (u * u)) / d4,
    fun K => ?_, ?_⟩
  · unfold argI
    simp only [islet_eq, int_add, int_mul, int_div]
  · have e1 := ediv_near (n1 * u) h1
    have e2 := ediv_near (n2 * (u * u)) h2
    have e3 := ediv_near (n3 * (u * u * u)) h3
    have e4 := ediv_near (n4 * (u * u * (u * u))) h4
    rw [Int.cast_add, Int.cast_add, Int.cast_add, Int.cast_add]
    generalize ((n1 * u / d1 : ℤ) : ℝ) = a1 at *
    generalize ((n2 * (u * u) / d2 : ℤ) : ℝ) = a2 at *
    generalize ((n3 * (u * u * u) / d3 : ℤ) : ℝ) = a3 at *
    generalize ((n4 * (u * u * (u * u)) / d4 : ℤ) : ℝ) = a4 at *
    push_cast at e1 e2 e3 e4
    rw [show (u : ℝ) * u = u ^ 2 by ring] at e2 e3 e4
    rw [show (u : ℝ) ^ 2 * u = u ^ 3 by ring] at e3
    rw [show (u : ℝ) ^ 2 * u ^ 2 = u ^ 4 by ring] at e4
    rw [abs_le] at *
    constructor <;> linarith [e1.1, e1.2, e2.1, e2.2, e3.1, e3.2, e4.1, e4.2]

/-- The five arguments are given accurately. -/
def LinPt (q : Lin) (T : ℝ) : Prop :=
  |polyR kD T - dToR ((q.aD + q.bD * T) / 10 ^ 12)| ≤ dToR 4e-12 ∧
  |polyR kM T - dToR ((q.aM + q.bM * T) / 10 ^ 12)| ≤ dToR 4e-12 ∧
  |polyR kM1 T - dToR ((q.aP + q.bP * T) / 10 ^ 12)| ≤ dToR 4e-12 ∧
  |polyR kF T - dToR ((q.aF + q.bF * T) / 10 ^ 12)| ≤ dToR 4e-12 ∧
  |polyR ko T - dToR ((q.aO + q.bO * T) / 10 ^ 12)| ≤ dToR 4e-12

theorem arg_deg {v : ℤ} {T x p : ℝ} (hv : |(v : ℝ) - x| ≤ 4) (hp : p = dToR (x / 10 ^ 12)) :
    |p - dToR (((v : ℝ) + ((0 : ℤ) : ℝ) * T) / 10 ^ 12)| ≤ dToR 4e-12 := by
  rw [hp, show dToR (x / 10 ^ 12) - dToR (((v : ℝ) + ((0 : ℤ) : ℝ) * T) / 10 ^ 12) =
    -dToR (((v : ℝ) - x) / 10 ^ 12) by unfold dToR; push_cast; ring, abs_neg, dToR_abs]
  unfold dToR
  have := Real.pi_pos
  have : |((v : ℝ) - x) / 10 ^ 12| ≤ 4e-12 := by
    rw [abs_div, abs_of_pos (by norm_num : (0 : ℝ) < 10 ^ 12), div_le_iff₀ (by norm_num)]
    exact hv.trans (by norm_num)
  gcongr

theorem withArgs_spec (u : ℤ) : ∃ q, (∀ K, withArgs u K = K q) ∧ LinPt q (u / 10 ^ 11) := by
  obtain ⟨aD, eD, hD⟩ := argI_spec 297850192100000 4452671114034 1000000 (-18819) 100000000000000000
    1 545868000000000000000000000 (-1) 11306500000000000000000000000000000000000 u (by norm_num)
    (by norm_num) (by norm_num) (by norm_num)
  obtain ⟨aM, eM, hM⟩ := argI_spec 357529109200000 359990502909 1000000 (-1536) 100000000000000000
    1 24490000000000000000000000000 0 1 u (by norm_num) (by norm_num) (by norm_num) (by norm_num)
  obtain ⟨aP, eP, hP⟩ := argI_spec 134963396400000 4771988675055 1000000 87414 100000000000000000
    1 69699000000000000000000000 (-1) 1471200000000000000000000000000000000000 u (by norm_num)
    (by norm_num) (by norm_num) (by norm_num)
  obtain ⟨aF, eF, hF⟩ := argI_spec 93272095000000 4832020175233 1000000 (-36539) 100000000000000000
    (-1) 3526000000000000000000000000 1 86331000000000000000000000000000000000000 u (by norm_num)
    (by norm_num) (by norm_num) (by norm_num)
  obtain ⟨aO, eO, hO⟩ := argI_spec 125044547900000 (-19341362891) 1000000 20754 100000000000000000
    1 467441000000000000000000000 1 6061600000000000000000000000000000000000 u (by norm_num)
    (by norm_num) (by norm_num) (by norm_num)
  refine ⟨⟨aD, 0, aM, 0, aP, 0, aF, 0, aO, 0⟩, fun K => ?_, arg_deg hD ?_, arg_deg hM ?_, arg_deg hP ?_,
    arg_deg hF ?_, arg_deg hO ?_⟩
  · unfold withArgs
    rw [eD, eM, eP, eF, eO]
  · simp only [kD, polyR, horner, dToR]; push_cast; ring
  · simp only [kM, polyR, horner, dToR]; push_cast; ring
  · simp only [kM1, polyR, horner, dToR]; push_cast; ring
  · simp only [kF, polyR, horner, dToR]; push_cast; ring
  · simp only [ko, polyR, horner, dToR]; push_cast; ring

theorem nutPt_row {q : Lin} {T : ℝ} (h : LinPt q T) (k : ℤ) (r : NutRow)
    (hr : r.1.natAbs + r.2.1.natAbs + r.2.2.1.natAbs + r.2.2.2.1.natAbs + r.2.2.2.2.1.natAbs ≤ 20) :
    |k * sin (nutArg T r) - ((nutRow q k r).1 : ℝ) *
      cos (dToR (((nutRow q k r).2.1 + (nutRow q k r).2.2 * (T * 10 ^ 11)) / 10 ^ 23))| ≤
      1.4e-12 * (k.natAbs : ℝ) := by
  rw [nutRow_eq, ← mul_sub, abs_mul]
  obtain ⟨h1, h2, h3, h4, h5⟩ := h
  have hk : |(k : ℝ)| = (k.natAbs : ℝ) := by rw [Nat.cast_natAbs, Int.cast_abs]
  rw [hk, mul_comm (1.4e-12 : ℝ)]
  refine mul_le_mul_of_nonneg_left ((sin_lip _ _).trans ?_) (Nat.cast_nonneg _)
  unfold nutArg
  generalize polyR kD T = x1 at *
  generalize polyR kM T = x2 at *
  generalize polyR kM1 T = x3 at *
  generalize polyR kF T = x4 at *
  generalize polyR ko T = x5 at *
  generalize dToR ((q.aD + q.bD * T) / 10 ^ 12) = y1 at *
  generalize dToR ((q.aM + q.bM * T) / 10 ^ 12) = y2 at *
  generalize dToR ((q.aP + q.bP * T) / 10 ^ 12) = y3 at *
  generalize dToR ((q.aF + q.bF * T) / 10 ^ 12) = y4 at *
  generalize dToR ((q.aO + q.bO * T) / 10 ^ 12) = y5 at *
  have d : dToR 4e-12 ≤ 7e-14 := by
    unfold dToR
    have := pi_lt_d2
    norm_num at this ⊢; linarith
  have d0 : 0 ≤ dToR 4e-12 := (abs_nonneg _).trans h1
  have hr' : (r.1.natAbs : ℝ) + r.2.1.natAbs + r.2.2.1.natAbs + r.2.2.2.1.natAbs + r.2.2.2.2.1.natAbs ≤ 20 := by
    exact_mod_cast hr
  have key : ∀ {x y : ℝ} {m : ℤ}, |x - y| ≤ dToR 4e-12 → |(x - y) * m| ≤ 7e-14 * (m.natAbs : ℝ) := by
    intro x y m hxy
    rw [abs_mul, Nat.cast_natAbs, Int.cast_abs]
    exact mul_le_mul_of_nonneg_right (hxy.trans d) (abs_nonneg _)
  rw [show x1 * r.1 + x2 * r.2.1 + x3 * r.2.2.1 + x4 * r.2.2.2.1 + x5 * r.2.2.2.2.1 -
    (y1 * r.1 + y2 * r.2.1 + y3 * r.2.2.1 + y4 * r.2.2.2.1 + y5 * r.2.2.2.2.1) =
    (x1 - y1) * r.1 + (x2 - y2) * r.2.1 + (x3 - y3) * r.2.2.1 + (x4 - y4) * r.2.2.2.1 +
      (x5 - y5) * r.2.2.2.2.1 by ring]
  refine (abs_add_le _ _).trans ((add_le_add ((abs_add_le _ _).trans (add_le_add ((abs_add_le _ _).trans
    (add_le_add (abs_add_le _ _) le_rfl)) le_rfl)) le_rfl).trans ?_)
  refine (add_le_add (add_le_add (add_le_add (add_le_add (key h1) (key h2)) (key h3)) (key h4)) (key h5)).trans ?_
  norm_num at hr' ⊢
  linarith

theorem nutPt_sum {q : Lin} {T : ℝ} (h : LinPt q T) (k : NutRow → ℤ) (l : List NutRow)
    (hl : ∀ r ∈ l, r.1.natAbs + r.2.1.natAbs + r.2.2.1.natAbs + r.2.2.2.1.natAbs + r.2.2.2.2.1.natAbs ≤ 20) :
    |(l.map fun r => (k r : ℝ) * sin (nutArg T r)).sum - degS (l.map fun r => nutRow q (k r) r) (T * 10 ^ 11)| ≤
      1.4e-12 * (((l.map fun r => (k r).natAbs).sum : ℕ) : ℝ) ∧
    degA (l.map fun r => nutRow q (k r) r) = (l.map fun r => (k r).natAbs + 1).sum := by
  unfold degS degA
  induction l with
  | nil => simp
  | cons r l ih =>
    have i := ih fun x hx => hl x (List.mem_cons_of_mem _ hx)
    have j := nutPt_row h (k r) r (hl r List.mem_cons_self)
    simp only [List.map_cons, List.sum_cons]
    constructor
    · rw [add_sub_add_comm, Nat.cast_add, mul_add]
      exact (abs_add_le _ _).trans (add_le_add j i.1)
    · rw [i.2]; rfl

theorem nutPt_near {q : Lin} {T : ℝ} (h : LinPt q T) (hT : |T| ≤ 31) :
    |10 ^ 4 * nutPsi T - (degS (nutAll0 q) (T * 10 ^ 11) + T / 10 * degS (nutAll1 q) (T * 10 ^ 11))| ≤ 1e-6 ∧
    degA (nutAll0 q) ≤ 200000 ∧ degA (nutAll1 q) ≤ 2100 := by
  have hl : ∀ r ∈ Data.nutationTable, r.1.natAbs + r.2.1.natAbs + r.2.2.1.natAbs + r.2.2.2.1.natAbs +
    r.2.2.2.2.1.natAbs ≤ 20 := by decide +kernel
  obtain ⟨a, a'⟩ := nutPt_sum h (fun r => r.2.2.2.2.2.1) Data.nutationTable hl
  obtain ⟨b, b'⟩ := nutPt_sum h (fun r => r.2.2.2.2.2.2.1) Data.nutationTable hl
  have a1 : (Data.nutationTable.map fun r : NutRow => r.2.2.2.2.2.1.natAbs).sum ≤ 200000 := by decide +kernel
  have b1 : (Data.nutationTable.map fun r : NutRow => r.2.2.2.2.2.2.1.natAbs).sum ≤ 2100 := by decide +kernel
  refine ⟨?_, ?_, ?_⟩
  · have a2 : (((Data.nutationTable.map fun r : NutRow => r.2.2.2.2.2.1.natAbs).sum : ℕ) : ℝ) ≤ 200000 := by
      exact_mod_cast a1
    have b2 : (((Data.nutationTable.map fun r : NutRow => r.2.2.2.2.2.2.1.natAbs).sum : ℕ) : ℝ) ≤ 2100 := by
      exact_mod_cast b1
    have e : 10 ^ 4 * nutPsi T = (Data.nutationTable.map fun r : NutRow =>
        (r.2.2.2.2.2.1 : ℝ) * sin (nutArg T r)).sum + T / 10 * (Data.nutationTable.map fun r : NutRow =>
        (r.2.2.2.2.2.2.1 : ℝ) * sin (nutArg T r)).sum := by
      unfold nutPsi
      generalize Data.nutationTable = l
      induction l with
      | nil => simp
      | cons r l ih =>
        simp only [List.map_cons, List.sum_cons]
        rw [mul_add, ih]
        ring
    rw [e]
    unfold nutAll0 nutAll1
    generalize (Data.nutationTable.map fun r : NutRow => (r.2.2.2.2.2.1 : ℝ) * sin (nutArg T r)).sum = x at *
    generalize (Data.nutationTable.map fun r : NutRow => (r.2.2.2.2.2.2.1 : ℝ) * sin (nutArg T r)).sum = y at *
    generalize degS _ (T * 10 ^ 11) = x' at *
    generalize degS _ (T * 10 ^ 11) = y' at *
    have t : |T / 10| ≤ 3.1 := by
      rw [abs_div, abs_of_pos (by norm_num : (0 : ℝ) < 10)]; norm_num; linarith
    have z := mul_le_mul t b (abs_nonneg _) (by norm_num)
    rw [← abs_mul] at z
    rw [show x + T / 10 * y - (x' + T / 10 * y') = (x - x') + T / 10 * (y - y') by ring]
    refine (abs_add_le _ _).trans ((add_le_add a z).trans ?_)
    generalize (((Data.nutationTable.map fun r : NutRow => r.2.2.2.2.2.1.natAbs).sum : ℕ) : ℝ) = w1 at *
    generalize (((Data.nutationTable.map fun r : NutRow => r.2.2.2.2.2.2.1.natAbs).sum : ℕ) : ℝ) = w2 at *
    norm_num at a2 b2 ⊢
    linarith
  · unfold nutAll0
    rw [a']
    decide +kernel
  · unfold nutAll1
    rw [b']
    decide +kernel

theorem rows_earthL : ∀ s ∈ tail1 (tail0 Data.earthL), ∀ r ∈ s, r.2.1 + r.2.2 ≤ 10 ^ 18 := by decide +kernel

theorem rows_earthR : ∀ s ∈ Data.earthR, ∀ r ∈ s, r.2.1 + r.2.2 ≤ 10 ^ 18 := by decide +kernel

/-- The terms of the longitude from `thr` leave an error of `m`. -/
def Tier (thr m : ℕ) : Prop := leftTot thr 1 (tail1 (tail0 Data.earthL)) + 720 ≤ m

theorem ptErr_earthL {thr m : ℕ} (h : Tier thr m) : (leftTot thr 1 (tail1 (tail0 Data.earthL)) : ℝ) +
    1.1e-11 * (ptA 1 (tail1 (tail0 Data.earthL)) : ℝ) ≤ (m : ℝ) - 719 := by
  have h1 : ptA 1 (tail1 (tail0 Data.earthL)) ≤ 10 ^ 10 := by decide +kernel
  have g0 : (leftTot thr 1 (tail1 (tail0 Data.earthL)) : ℝ) + 720 ≤ m := by exact_mod_cast h
  have g1 : (ptA 1 (tail1 (tail0 Data.earthL)) : ℝ) ≤ 10 ^ 10 := by exact_mod_cast h1
  generalize (leftTot thr 1 (tail1 (tail0 Data.earthL)) : ℝ) = a at *
  generalize (ptA 1 (tail1 (tail0 Data.earthL)) : ℝ) = b at *
  norm_num at *
  linarith

theorem ptErr_earthR : (leftTot 100000 1 Data.earthR : ℝ) + 1.1e-11 * (ptA 1 Data.earthR : ℝ) ≤ 3030000 := by
  have h0 : leftTot 100000 1 Data.earthR ≤ 3024890 := by decide +kernel
  have h1 : ptA 1 Data.earthR ≤ 2 * 10 ^ 11 := by decide +kernel
  have g0 : (leftTot 100000 1 Data.earthR : ℝ) ≤ 3024890 := by exact_mod_cast h0
  have g1 : (ptA 1 Data.earthR : ℝ) ≤ 2 * 10 ^ 11 := by exact_mod_cast h1
  generalize (leftTot 100000 1 Data.earthR : ℝ) = a at *
  generalize (ptA 1 Data.earthR : ℝ) = b at *
  norm_num at *
  linarith

/-- The integer computed is the longitude. -/
theorem lamN_spec {thr m : ℕ} (ht : Tier thr m) {u : ℤ} (hu : |(u : ℝ)| ≤ 3e12) : ∃ l : ℤ, (∀ K, lamN thr u K = K l) ∧
    |(l : ℝ) / 2 ^ 128 - 10 ^ 11 * (sunLambda (u * 1e-12 * 365250 + 2451545) - π)| ≤ (m : ℝ) - 1 := by
  obtain ⟨h, eh, bh⟩ := ptN_spec thr hu (tail1 (tail0 Data.earthL)) rows_earthL 1
  obtain ⟨R, eR, bR⟩ := ptN_spec 100000 hu Data.earthR rows_earthR 1
  obtain ⟨q, eq, hq⟩ := withArgs_spec u
  obtain ⟨n0, e0, b0⟩ := pdN_spec u (nutAll0 q)
  obtain ⟨n1, e1, b1⟩ := pdN_spec u (nutAll1 q)
  refine ⟨h + 59667507734202341132934789052046705805324753829888 +
    213810288856924638045060549074782479844232054645456896 * u / 1000000000000 +
    (10 * (n0 + u * n1 / 1000000000000) - 3073770620396837140464662828931162254082048) *
      4848136811095360 / 1000000000000000 -
    115024797163532619286834780107394300096450295892532278978346068315505456527360140615625551726510 / R,
    fun K => ?_, ?_⟩
  · unfold lamN
    rw [eh, eR, eq, e0, e1]
    simp only [islet_eq, int_add, int_mul, int_div, int_sub]
  clear eh eR eq e0 e1
  have hm : |(u : ℝ) * 1e-12| ≤ 3 := by
    rw [abs_mul, abs_of_pos (by norm_num : (0 : ℝ) < 1e-12)]
    norm_num at hu ⊢; linarith
  have mu : millennia (u * 1e-12 * 365250 + 2451545) = u * 1e-12 := by unfold millennia; ring
  have m6 : |millennia (u * 1e-12 * 365250 + 2451545)| ≤ 6 := by rw [mu]; linarith
  have eT : jcent (u * 1e-12 * 365250 + 2451545) = u / 10 ^ 11 := by unfold jcent; ring
  have fk := fk_near m6
  obtain ⟨-, -, -, r1, r2, -⟩ := earth6 _ _ m6 m6
  obtain ⟨nn, a0, a1⟩ := nutPt_near hq (by
    rw [show (u : ℝ) / 10 ^ 11 = 10 * (u * 1e-12) by ring, abs_mul, abs_of_pos (by norm_num : (0 : ℝ) < 10)]
    linarith)
  rw [div_mul_cancel₀ _ (by norm_num : (10 : ℝ) ^ 11 ≠ 0), show (u : ℝ) / 10 ^ 11 / 10 = u * 1e-12 by ring] at nn
  have a0' : (degA (nutAll0 q) : ℝ) ≤ 200000 := by exact_mod_cast a0
  have a1' : (degA (nutAll1 q) : ℝ) ≤ 2100 := by exact_mod_cast a1
  rw [Nat.cast_one, one_mul] at bh bR
  have bh := bh.trans (ptErr_earthL ht)
  have bR := bR.trans ptErr_earthR
  -- the parts of the longitude
  have hd := head_earth (u * 1e-12)
  have nu : nutationInLongitude (u * 1e-12 * 365250 + 2451545) =
      10 ^ 4 * nutPsi (u / 10 ^ 11) * (10 ^ 7 * (π / 648000)) / 10 ^ 11 := by
    rw [nutationInLongitude_eq, dToR_sec, eT]; unfold arcsec; ring
  unfold sunLambda
  generalize fkDelta _ (sunApp _) _ = f at *
  unfold sunApp
  rw [poisson_eq_pval, nu]
  rw [mu] at *
  rw [poisson_eq_pval] at r1 r2 ⊢
  -- aberration
  generalize pval Data.earthR (u * 1e-12) = ρ at *
  have Rn : |(R : ℝ) / 2 ^ 128 / 10 ^ 11 - ρ| ≤ 3.03e-5 := by
    rw [show (R : ℝ) / 2 ^ 128 / 10 ^ 11 - ρ = (R / 2 ^ 128 - 10 ^ 11 * ρ) / 10 ^ 11 by ring, abs_div,
      abs_of_pos (by norm_num : (0 : ℝ) < 10 ^ 11), div_le_iff₀ (by norm_num)]
    exact bR.trans (by norm_num)
  have Rl : 0.974 ≤ (R : ℝ) / 2 ^ 128 / 10 ^ 11 := by
    have := (abs_le.1 Rn).1
    norm_num at this r1 ⊢; linarith
  have R0 : (0 : ℝ) < R := by
    by_contra c
    rw [not_lt] at c
    have : (R : ℝ) / 2 ^ 128 / 10 ^ 11 ≤ 0 := by
      rw [div_div]; exact div_nonpos_of_nonpos_of_nonneg c (by positivity)
    norm_num at Rl; linarith
  have ab := aberration_lip (R := (R : ℝ) / 2 ^ 128 / 10 ^ 11) (S := ρ)
    (le_trans (by norm_num) Rl) (le_trans (by norm_num) r1)
  have ab : |aberrationLow ((R : ℝ) / 2 ^ 128 / 10 ^ 11) - aberrationLow ρ| ≤ 6.06e-9 := by
    refine ab.trans ((mul_le_mul_of_nonneg_left Rn (by norm_num)).trans (by norm_num))
  have R0z : (0 : ℤ) < R := by exact_mod_cast R0
  rw [(aberration_low_value _ (lt_of_lt_of_le (by norm_num) Rl)).1] at ab
  have as : arcsec (20.4898 / ((R : ℝ) / 2 ^ 128 / 10 ^ 11)) =
      204898 * (10 ^ 7 * (π / 648000)) * 2 ^ 128 / R := by
    unfold arcsec
    field_simp
    ring
  have as' : arcsec 0.09033 = 903.3 * (10 ^ 7 * (π / 648000)) / 10 ^ 11 := by unfold arcsec; ring
  rw [as] at ab
  rw [as'] at fk
  have sn := asec_near
  have g1 := ediv_near (213810288856924638045060549074782479844232054645456896 * u) (b := 1000000000000) (by norm_num)
  have g2 := ediv_near (u * n1) (b := 1000000000000) (by norm_num)
  have g3 := ediv_near ((10 * (n0 + u * n1 / 1000000000000) - 3073770620396837140464662828931162254082048) *
      4848136811095360) (b := 1000000000000000) (by norm_num)
  have g4 := ediv_near (115024797163532619286834780107394300096450295892532278978346068315505456527360140615625551726510)
    R0z
  rw [Int.cast_sub, Int.cast_add, Int.cast_add, Int.cast_add]
  generalize (((213810288856924638045060549074782479844232054645456896 * u / 1000000000000 : ℤ)) : ℝ) = G1 at *
  generalize (((10 * (n0 + u * n1 / 1000000000000) - 3073770620396837140464662828931162254082048) *
      4848136811095360 / 1000000000000000 : ℤ) : ℝ) = G3 at *
  generalize ((115024797163532619286834780107394300096450295892532278978346068315505456527360140615625551726510 /
    R : ℤ) : ℝ) = G4 at *
  rw [Int.cast_mul, Int.cast_sub, Int.cast_mul, Int.cast_add] at g3
  generalize (((u * n1 / 1000000000000 : ℤ)) : ℝ) = G2 at *
  push_cast at g1 g2 g3 g4 ⊢
  clear as as' nu eT hq bR Rn mu
  have bd0 : |degS (nutAll0 q) u| ≤ 200000 := by
    refine (degS_abs _ _).trans (le_trans ?_ a0')
    have l : ((nutAll0 q).map fun r => r.1).sum ≤ degA (nutAll0 q) := by
      unfold degA
      exact List.sum_le_sum fun r _ => Nat.le_succ _
    exact_mod_cast l
  have bd1 : |degS (nutAll1 q) u| ≤ 2100 := by
    refine (degS_abs _ _).trans (le_trans ?_ a1')
    have l : ((nutAll1 q).map fun r => r.1).sum ≤ degA (nutAll1 q) := by
      unfold degA
      exact List.sum_le_sum fun r _ => Nat.le_succ _
    exact_mod_cast l
  have W1 : (2 : ℝ) ^ 128 / R ≤ 1.03e-11 := by
    rw [div_le_iff₀ R0]
    rw [div_div, le_div_iff₀ (by positivity)] at Rl
    norm_num at Rl ⊢
    linarith
  have W0 : 0 ≤ (2 : ℝ) ^ 128 / R := by positivity
  -- divided by the scale
  have x1 : |G1 / 2 ^ 128 - 628331966747491 * (u * 1e-12)| ≤ 1e-30 := by
    rw [show G1 / 2 ^ 128 - 628331966747491 * ((u : ℝ) * 1e-12) =
      (G1 - 213810288856924638045060549074782479844232054645456896 * u / 1000000000000) / 2 ^ 128 by ring,
      abs_div, div_le_iff₀ (by positivity)]
    exact g1.trans (by norm_num)
  have x2 : |G2 / 2 ^ 128 - u * 1e-12 * (n1 / 2 ^ 128)| ≤ 1e-30 := by
    rw [show G2 / 2 ^ 128 - (u : ℝ) * 1e-12 * (n1 / 2 ^ 128) =
      (G2 - u * n1 / 1000000000000) / 2 ^ 128 by ring, abs_div, div_le_iff₀ (by positivity)]
    exact g2.trans (by norm_num)
  have x3 : |G3 / 2 ^ 128 - 48.4813681109536 * (n0 / 2 ^ 128 + G2 / 2 ^ 128 - 903.3)| ≤ 1e-30 := by
    rw [show G3 / 2 ^ 128 - 48.4813681109536 * ((n0 : ℝ) / 2 ^ 128 + G2 / 2 ^ 128 - 903.3) =
      (G3 - (10 * (n0 + G2) - 3073770620396837140464662828931162254082048) * 4848136811095360 /
        1000000000000000) / 2 ^ 128 by ring, abs_div, div_le_iff₀ (by positivity)]
    exact g3.trans (by norm_num)
  have x4 : |G4 / 2 ^ 128 - 204898 * 48.4813681109536 * 10 ^ 11 * (2 ^ 128 / R)| ≤ 1e-5 := by
    rw [show G4 / 2 ^ 128 - 204898 * 48.4813681109536 * 10 ^ 11 * ((2 : ℝ) ^ 128 / R) =
      (G4 - 115024797163532619286834780107394300096450295892532278978346068315505456527360140615625551726510 /
        R) / 2 ^ 128 + (115024797163532619286834780107394300096450295892532278978346068315505456527360140615625551726510 / 2 ^ 256 - 204898 * 48.4813681109536 * 10 ^ 11) * (2 ^ 128 / R) by
        field_simp; ring]
    refine (abs_add_le _ _).trans ?_
    rw [abs_div, abs_mul, abs_of_nonneg W0]
    have : |G4 - 115024797163532619286834780107394300096450295892532278978346068315505456527360140615625551726510 /
        R| / |(2 : ℝ) ^ 128| ≤ 1e-30 := by
      rw [div_le_iff₀ (by positivity)]
      exact g4.trans (by norm_num)
    refine (add_le_add this (mul_le_mul_of_nonneg_left W1 (abs_nonneg _))).trans ?_
    norm_num [abs_of_neg, abs_of_pos]
  have hz : ((h : ℝ) + 59667507734202341132934789052046705805324753829888 + G1 + G3 - G4) / 2 ^ 128 =
      h / 2 ^ 128 + 175347045673 + G1 / 2 ^ 128 + G3 / 2 ^ 128 - G4 / 2 ^ 128 := by ring
  have abz : 204898 * (10 ^ 7 * (π / 648000)) * 2 ^ 128 / (R : ℝ) =
      204898 * (10 ^ 7 * (π / 648000)) * (2 ^ 128 / R) := by ring
  rw [hz]
  rw [abz] at ab
  clear hz abz g1 g2 g3 g4
  generalize (2 : ℝ) ^ 128 / R = W at *
  generalize 10 ^ 7 * (π / 648000) = κ at *
  generalize (h : ℝ) / 2 ^ 128 = h' at *
  generalize (n0 : ℝ) / 2 ^ 128 = m0 at *
  generalize (n1 : ℝ) / 2 ^ 128 = m1 at *
  generalize G1 / 2 ^ 128 = G1' at *
  generalize G2 / 2 ^ 128 = G2' at *
  generalize G3 / 2 ^ 128 = G3' at *
  generalize G4 / 2 ^ 128 = G4' at *
  generalize 10 ^ 4 * nutPsi (u / 10 ^ 11) = ψ at *
  generalize degS (nutAll0 q) u = d0 at *
  generalize degS (nutAll1 q) u = d1 at *
  generalize (degA (nutAll0 q) : ℝ) = A0 at *
  generalize (degA (nutAll1 q) : ℝ) = A1 at *
  generalize pval Data.earthL (u * 1e-12) = L at *
  generalize pval (tail1 (tail0 Data.earthL)) (u * 1e-12) = L' at *
  generalize (u : ℝ) * 1e-12 = t at *
  generalize aberrationLow ρ = α at *
  have s3 : |t * d1| ≤ 3 * 2100 := by
    rw [abs_mul]; exact mul_le_mul hm bd1 (abs_nonneg _) (by norm_num)
  have s4 : |(κ - 48.4813681109536) * (d0 + t * d1 - 903.3)| ≤ 1e-12 * 500000 := by
    rw [abs_mul]
    refine mul_le_mul sn ?_ (abs_nonneg _) (by norm_num)
    obtain ⟨m1, m2⟩ := abs_le.1 bd0
    obtain ⟨m3, m4⟩ := abs_le.1 s3
    rw [abs_le]; norm_num; constructor <;> linarith
  have s5 : |κ * (ψ - (d0 + t * d1))| ≤ 49 * 1e-6 := by
    rw [abs_mul]
    obtain ⟨k1, k2⟩ := abs_le.1 sn
    refine mul_le_mul ?_ nn (abs_nonneg _) (by norm_num)
    rw [abs_le]; norm_num at k1 k2 ⊢; constructor <;> linarith
  have s6 : |(κ - 48.4813681109536) * W| ≤ 1e-12 * 1.03e-11 := by
    rw [abs_mul, abs_of_nonneg W0]
    exact mul_le_mul sn W1 W0 (by norm_num)
  have s7 : |t * (m1 - d1)| ≤ 3 * (3e-18 * 2100) := by
    rw [abs_mul]
    exact mul_le_mul hm (b1.trans (by linarith)) (abs_nonneg _) (by norm_num)
  have key : h' + 175347045673 + G1' + G3' - G4' - 10 ^ 11 * (L + π + (ψ * κ / 10 ^ 11 + α) + f - π) =
      (h' - 10 ^ 11 * L') + (G1' - 628331966747491 * t) +
      (G3' - 48.4813681109536 * (m0 + G2' - 903.3)) - (G4' - 204898 * 48.4813681109536 * 10 ^ 11 * W) +
      48.4813681109536 * (m0 - d0) + 48.4813681109536 * (G2' - t * m1) + 48.4813681109536 * (t * (m1 - d1)) -
      (κ - 48.4813681109536) * (d0 + t * d1 - 903.3) - κ * (ψ - (d0 + t * d1)) +
      204898 * 10 ^ 11 * ((κ - 48.4813681109536) * W) + 10 ^ 11 * (-(204898 * κ * W) - α) -
      10 ^ 11 * (f + 903.3 * κ / 10 ^ 11) := by
    have : 10 ^ 11 * L = 10 ^ 11 * L' + 175347045673 + 628331966747491 * t := hd
    linear_combination -this
  rw [key]
  clear key hd
  generalize h' - 10 ^ 11 * L' = v1 at *
  generalize G1' - 628331966747491 * t = v2 at *
  generalize G3' - 48.4813681109536 * (m0 + G2' - 903.3) = v3 at *
  generalize G4' - 204898 * 48.4813681109536 * 10 ^ 11 * W = v4 at *
  generalize m0 - d0 = v5 at *
  generalize G2' - t * m1 = v6 at *
  generalize t * (m1 - d1) = v7 at *
  generalize (κ - 48.4813681109536) * (d0 + t * d1 - 903.3) = v8 at *
  generalize κ * (ψ - (d0 + t * d1)) = v9 at *
  generalize (κ - 48.4813681109536) * W = v10 at *
  generalize -(204898 * κ * W) - α = v11 at *
  generalize f + 903.3 * κ / 10 ^ 11 = v12 at *
  clear s3 nn bd0 bd1 b1 a1'
  obtain ⟨c1, d1⟩ := abs_le.1 bh
  obtain ⟨c2, d2⟩ := abs_le.1 x1
  obtain ⟨c3, d3⟩ := abs_le.1 x3
  obtain ⟨c4, d4⟩ := abs_le.1 x4
  obtain ⟨c5, d5⟩ := abs_le.1 b0
  obtain ⟨c6, d6⟩ := abs_le.1 x2
  obtain ⟨c7, d7⟩ := abs_le.1 s7
  obtain ⟨c8, d8⟩ := abs_le.1 s4
  obtain ⟨c9, d9⟩ := abs_le.1 s5
  obtain ⟨c10, d10⟩ := abs_le.1 s6
  obtain ⟨c11, d11⟩ := abs_le.1 ab
  obtain ⟨c12, d12⟩ := abs_le.1 fk
  rw [abs_le]
  norm_num at c2 c3 c4 c5 c6 c7 c8 c9 c10 c11 c12 d2 d3 d4 d5 d6 d7 d8 d9 d10 d11 d12 a0' ⊢
  constructor <;> linarith

end Verif

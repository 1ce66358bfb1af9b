import Verif.Lemmas.LaneVsop
import Verif.Lemmas.Nutation
import Verif.Model.Equinox

/-!
# The longitude of the Sun at the results of `equinox_approx`: the computation

A block is a season and up to 1024 consecutive years. The sums of all years of a block are formed at
once, at equally spaced times.
-/

namespace Verif
open Real Finset

set_option exponentiation.threshold 500

/-! ## Definitions -/

/-- Amplitude, phase in units of `1e-23` degree and frequency in units of `1e-11` degree per
millennium. -/
abbrev DRow := ℕ × ℤ × ℤ

/-- Sum of a table of rows in degrees. -/
noncomputable def degN (lv : List (ℕ × ℕ × ℕ)) (U H : ℤ) (l : List DRow) (K : ℕ → ℕ → Bool) : Bool :=
  foldN lv 0 0 18446744073709551616 36000000000000000000000000 U H (fun r : DRow => r.1)
    (fun r => r.2.1) (fun r => r.2.2) (fun _ => 0) l 0 0 0 0 0 fun V c _ _ _ => K V c

/-- The rows of the periodic correction of `equinox_approx`. -/
def corrRows : List DRow := Data.equinoxTerms.map fun r =>
  (r.1.toNat, r.2.1 * 100000000000000000000, r.2.2 * 1000000000)

/-- The rows of its denominator, in units of `1e-4`. -/
def denRows : List DRow := [(334, -247000000000000000000000, 35999373000000000),
  (7, -494000000000000000000000, 71998746000000000)]

/-- The five arguments of the nutation as linear functions of time: units of `1e-12` degree and of
`1e-12` degree per century. -/
structure Lin where
  aD : ℤ
  bD : ℤ
  aM : ℤ
  bM : ℤ
  aP : ℤ
  bP : ℤ
  aF : ℤ
  bF : ℤ
  aO : ℤ
  bO : ℤ

/-- Right angle with the sign of `k`, in units of `1e-23` degree. -/
def quart : ℤ → ℤ
  | .ofNat _ => -9000000000000000000000000
  | .negSucc _ => 9000000000000000000000000

/-- A row of the nutation with coefficient `k`. -/
def nutRow (q : Lin) (k : ℤ) (r : NutRow) : DRow :=
  (k.natAbs, (q.aD * r.1 + q.aM * r.2.1 + q.aP * r.2.2.1 + q.aF * r.2.2.2.1 + q.aO * r.2.2.2.2.1) *
    100000000000 + quart k,
    q.bD * r.1 + q.bM * r.2.1 + q.bP * r.2.2.1 + q.bF * r.2.2.2.1 + q.bO * r.2.2.2.2.1)

/-- The larger rows of the nutation in longitude, in units of `1e-4` second. -/
def nutRows0 (q : Lin) : List DRow :=
  (Data.nutationTable.filter fun r : NutRow => Nat.ble 20 r.2.2.2.2.2.1.natAbs).map fun r =>
    nutRow q r.2.2.2.2.2.1 r

/-- The larger rows of its secular part, in units of `1e-4` second per millennium. -/
def nutRows1 (q : Lin) : List DRow :=
  (Data.nutationTable.filter fun r : NutRow => Nat.ble 5 r.2.2.2.2.2.2.1.natAbs).map fun r =>
    nutRow q r.2.2.2.2.2.2.1 r

/-- The sums of a block. -/
structure Sums where
  tb : List (ℕ × ℕ × ℕ × ℕ)
  vS : ℕ
  cS : ℕ
  vD : ℕ
  cD : ℕ
  v0 : ℕ
  c0 : ℕ
  v1 : ℕ
  c1 : ℕ

/-- The parameters of a block: times `U + j H` in `1e-12` millennium, coefficients of the polynomial
and of the year in units of `1e-17` day, first year, number of right angles of the first event. -/
structure Blk where
  U : ℤ
  H : ℤ
  a : ℤ
  b : ℤ
  c : ℤ
  d : ℤ
  e : ℤ
  z : ℤ
  h : ℤ

/-- Check of the event `j` of a block: the longitude is within `T` of its value, in units of
`1e-11 / 2 ^ 56`. -/
noncomputable def laneN (s : Sums) (k : Blk) (T j : ℕ) : Bool :=
  slet false (Nat.sub 1023 j) fun p =>
  islet (Int.add k.z (Int.ofNat j)) fun z =>
  islet (Int.add (Int.mul (Int.add (Int.mul (Int.add (Int.mul (Int.add (Int.mul k.e z) k.d) z) k.c) z)
    k.b) z) k.a) fun N =>
  islet (valN s.vS s.cS p) fun vs => islet (valN s.vD s.cD p) fun vd =>
  islet (Int.add N (Int.ediv (Int.mul (Int.ofNat 10000000000000000) vs)
    (Int.add (Int.ofNat 720575940379279360000) vd))) fun x =>
  islet (Int.add k.U (Int.mul (Int.ofNat j) k.H)) fun u =>
  islet (Int.sub x (Int.mul u (Int.ofNat 36525000000))) fun D =>
  bsel (Nat.ble (Int.natAbs D) 2600000000000000)
    (bsel (Nat.ble (Int.natAbs (Int.sub N (Int.mul u (Int.ofNat 36525000000)))) 1570000000000000)
    (bsel (Nat.ble (Int.natAbs x) 109575000000000000000000)
      (islet (valN s.v0 s.c0 p) fun n0 => islet (valN s.v1 s.c1 p) fun n1 =>
        hornI p D x s.tb fun h =>
        islet (Int.add n0 (Int.ediv (Int.mul x n1) (Int.ofNat 36525000000000000000000))) fun n =>
        islet (Int.ediv (Int.mul (Int.sub (Int.mul (Int.ofNat 10) n)
          (Int.ofNat 148295465278778185351168)) (Int.ofNat 4848136811095360))
          (Int.ofNat 1000000000000000)) fun n =>
        islet (Int.ediv (Int.mul (Int.ofNat 45276089780943541618206966808576) x)
          (Int.ofNat 36525000000000000000000)) fun m =>
        islet (Int.add k.h (Int.ofNat (Nat.mul 4 j))) fun r =>
        islet (Int.ediv (Int.mul r (Int.ofNat 11318780403245504441215985672077180928))
          (Int.ofNat 1000000000)) fun g =>
        Nat.ble (Int.natAbs (Int.sub (Int.add (Int.add (Int.add h (Int.ofNat 12635086232855042288074620928))
          m) n) g)) T)
      false) false) false

/-- `f j` for all `j < n`. -/
noncomputable def allP (n : ℕ) (f : ℕ → Bool) : Bool :=
  Nat.rec (motive := fun _ => Bool) true (fun p ih => bsel (f p) ih false) n

/-- The parameters of a block. -/
noncomputable def withBlk (U H a b c d e z h : ℤ) (K : Blk → Bool) : Bool :=
  islet U fun U => islet H fun H => islet a fun a => islet b fun b => islet c fun c => islet d fun d =>
  islet e fun e => islet z fun z => islet h fun h => K ⟨U, H, a, b, c, d, e, z, h⟩

/-- The sums of a block. -/
noncomputable def withSums (U H : ℤ) (q : Lin) (K : Sums → Bool) : Bool :=
  withLv 10 1 496 1180591620717411303424 fun lv =>
  tabsN lv 1500 U H (tail1 (tail0 Data.earthL)) 1 0 fun tb _ =>
  degN lv U H corrRows fun vS cS => degN lv U H denRows fun vD cD =>
  degN lv U H (nutRows0 q) fun v0 c0 => degN lv U H (nutRows1 q) fun v1 c1 =>
  K ⟨tb, vS, cS, vD, cD, v0, c0, v1, c1⟩

/-- `T`, but for `j` in a list a number larger than any value. -/
noncomputable def pickT (T : ℕ) (ex : List ℕ) (j : ℕ) : ℕ :=
  List.rec (motive := fun _ => ℕ) T
    (fun e _ ih => bsel (Nat.beq e j) 1000000000000000000000000000000000000000000000000 ih) ex

/-- Check of a block of `n` events, except for those in a list. -/
noncomputable def blockN (U H : ℤ) (q : Lin) (a b c d e z h : ℤ) (T : ℕ) (ex : List ℕ) (n : ℕ) : Bool :=
  withBlk U H a b c d e z h fun k => withSums k.U k.H q fun s => allP n fun j =>
    laneN s k (pickT T ex j) j

/-! ## Correctness -/

theorem pickT_eq {T : ℕ} {ex : List ℕ} {j : ℕ} (h : j ∉ ex) : pickT T ex j = T := by
  induction ex with
  | nil => rfl
  | cons e ex ih =>
    rw [List.mem_cons, not_or] at h
    have : pickT T (e :: ex) j =
      bsel (Nat.beq e j) 1000000000000000000000000000000000000000000000000 (pickT T ex j) := rfl
    rw [this, bsel_eq, if_neg fun c => h.1 (Nat.eq_of_beq_eq_true c).symm, ih h.2]

/-- Value of a table of rows in degrees. -/
noncomputable def degS (l : List DRow) (u : ℝ) : ℝ :=
  (l.map fun r => (r.1 : ℝ) * cos (dToR ((r.2.1 + r.2.2 * u) / 10 ^ 23))).sum

theorem ang_deg (A B : ℤ) (u : ℝ) :
    ang 18446744073709551616 36000000000000000000000000 A B u = dToR ((A + B * u) / 10 ^ 23) := by
  unfold ang dToR
  push_cast
  ring

/-- Sum of the amplitudes of a table. -/
def degA (l : List DRow) : ℕ := (l.map fun r => r.1 + 1).sum

theorem kept_zero {α : Type} (amp : α → ℕ) (l : List α) : kept 0 0 amp l = l := by
  unfold kept
  exact List.filter_eq_self.2 fun a _ => by simp

theorem degN_spec {lv : List (ℕ × ℕ × ℕ)} (h : LvOK 0 lv) (hl : lv.length = 10) (U H : ℤ)
    (l : List DRow) (ha : l.all (fun r => Nat.ble r.1 8589934592) = true) :
    ∃ V, (∀ K, degN lv U H l K = K V l.length) ∧
      Lanes V l.length (fun j => degS l (U + j * H)) (1.2e-7 * degA l) := by
  have ha' : ∀ r ∈ l, r.1 ≤ 2 ^ 33 := by
    intro r hr
    have := Nat.le_of_ble_eq_true (List.all_eq_true.1 ha r hr)
    omega
  obtain ⟨V, W, eK, hV, -⟩ := foldN_spec h hl 0 0 18446744073709551616 36000000000000000000000000
    (by norm_num) U H (fun r : DRow => r.1) (fun r => r.2.1) (fun r => r.2.2) (fun _ => 0) l ha'
    (dr := 0) lanes_zero lanes_zero
  rw [kept_zero] at eK hV
  refine ⟨V, fun K => ?_, ?_⟩
  · unfold degN
    rw [eK, zero_add]
  · simp only [zero_add, ang_deg] at hV
    have e : (l.map fun r => rowErr r.1).sum = 1.2e-7 * (degA l : ℝ) := by
      unfold degA
      clear ha ha' eK hV
      induction l with
      | nil => simp
      | cons r l ih =>
        simp only [List.map_cons, List.sum_cons, Nat.cast_add, ih]
        unfold rowErr
        push_cast
        ring
    rw [e] at hV
    exact hV

theorem int_add (a b : ℤ) : Int.add a b = a + b := rfl
theorem int_sub (a b : ℤ) : Int.sub a b = a - b := rfl
theorem int_mul (a b : ℤ) : Int.mul a b = a * b := rfl
theorem int_div (a b : ℤ) : Int.ediv a b = a / b := rfl

/-- What is known of the sums of a block. -/
structure SumsOK (U H : ℤ) (q : Lin) (s : Sums) : Prop where
  tb : TabOK 1500 U H 1 (tail1 (tail0 Data.earthL)) s.tb
  vS : Lanes s.vS s.cS (fun j => degS corrRows (U + j * H)) (1.2e-7 * degA corrRows)
  vD : Lanes s.vD s.cD (fun j => degS denRows (U + j * H)) (1.2e-7 * degA denRows)
  v0 : Lanes s.v0 s.c0 (fun j => degS (nutRows0 q) (U + j * H)) (1.2e-7 * degA (nutRows0 q))
  v1 : Lanes s.v1 s.c1 (fun j => degS (nutRows1 q) (U + j * H)) (1.2e-7 * degA (nutRows1 q))
  cS : s.cS ≤ 2 ^ 40
  cD : s.cD ≤ 2 ^ 40
  c0 : s.c0 ≤ 2 ^ 40
  c1 : s.c1 ≤ 2 ^ 40

theorem fits_earth : fits (tail1 (tail0 Data.earthL)) = true := by decide +kernel

theorem nutRows_small (q : Lin) (k : NutRow → ℤ) (l : List NutRow)
    (h : l.all (fun r => Nat.ble (k r).natAbs 8589934592) = true) :
    (l.map fun r => nutRow q (k r) r).all (fun r => Nat.ble r.1 8589934592) = true := by
  rw [List.all_map]
  exact h

theorem withSums_spec (U H : ℤ) (q : Lin) : ∃ s, SumsOK U H q s ∧ ∀ K, withSums U H q K = K s := by
  obtain ⟨lv, h, hl, eL⟩ := withLv_spec 10 (k := 0) (J := 1) (sh := 496) (O := 1180591620717411303424)
    (by simp) (by norm_num) (by norm_num)
  obtain ⟨tb, eT, hT⟩ := tabsN_spec h hl 1500 U H (tail1 (tail0 Data.earthL)) fits_earth 1 0
  obtain ⟨vS, eS, hS⟩ := degN_spec h hl U H corrRows (by decide +kernel)
  obtain ⟨vD, eD, hD⟩ := degN_spec h hl U H denRows (by decide +kernel)
  obtain ⟨v0, e0, h0⟩ := degN_spec h hl U H (nutRows0 q) (nutRows_small q _ _ (by decide +kernel))
  obtain ⟨v1, e1, h1⟩ := degN_spec h hl U H (nutRows1 q) (nutRows_small q _ _ (by decide +kernel))
  have l0 : (nutRows0 q).length ≤ 63 := by
    unfold nutRows0
    rw [List.length_map]
    exact (List.length_filter_le _ _).trans (by decide +kernel)
  have l1 : (nutRows1 q).length ≤ 63 := by
    unfold nutRows1
    rw [List.length_map]
    exact (List.length_filter_le _ _).trans (by decide +kernel)
  refine ⟨⟨tb, vS, corrRows.length, vD, denRows.length, v0, (nutRows0 q).length, v1, (nutRows1 q).length⟩,
    ⟨hT, hS, hD, h0, h1, show corrRows.length ≤ 2 ^ 40 by decide +kernel,
      show denRows.length ≤ 2 ^ 40 by decide +kernel, l0.trans (by norm_num),
      l1.trans (by norm_num)⟩, fun K => ?_⟩
  unfold withSums
  rw [eL, eT, eS, eD, e0, e1]

theorem withBlk_spec (U H a b c d e z h : ℤ) (K : Blk → Bool) :
    withBlk U H a b c d e z h K = K ⟨U, H, a, b, c, d, e, z, h⟩ := by
  unfold withBlk
  simp only [islet_eq]

theorem allP_spec {n : ℕ} {f : ℕ → Bool} (h : allP n f = true) : ∀ j < n, f j = true := by
  induction n with
  | zero => intro j hj; omega
  | succ n ih =>
    have e : allP (n + 1) f = bsel (f n) (allP n f) false := rfl
    rw [e, bsel_eq] at h
    split_ifs at h with c
    intro j hj
    rcases Nat.lt_succ_iff_lt_or_eq.1 hj with h' | h'
    · exact ih h j h'
    · rw [h']; exact c

/-- The value of the polynomial, in units of `1e-17` day after 2000. -/
def Blk.poly (k : Blk) (z : ℤ) : ℤ := (((k.e * z + k.d) * z + k.c) * z + k.b) * z + k.a

theorem degA_le {l : List DRow} {n : ℕ} (h : degA l ≤ n) {e : ℝ} (he : 1.2e-7 * (n : ℝ) + 1 / 2 ^ 56 ≤ e) :
    1.2e-7 * (degA l : ℝ) + 1 / 2 ^ 56 ≤ e := by
  have : (degA l : ℝ) ≤ n := by exact_mod_cast h
  refine le_trans ?_ he
  norm_num
  linarith

theorem degA_corr : degA corrRows ≤ 2100 := by decide +kernel
theorem degA_den : degA denRows ≤ 343 := by decide +kernel
theorem degA_nut0 (q : Lin) : degA (nutRows0 q) ≤ 200000 := by
  unfold degA nutRows0
  rw [List.map_map]
  exact (show ((Data.nutationTable.filter fun r : NutRow => Nat.ble 20 r.2.2.2.2.2.1.natAbs).map
    fun r => r.2.2.2.2.2.1.natAbs + 1).sum ≤ 200000 by decide +kernel)
theorem degA_nut1 (q : Lin) : degA (nutRows1 q) ≤ 2000 := by
  unfold degA nutRows1
  rw [List.map_map]
  exact (show ((Data.nutationTable.filter fun r : NutRow => Nat.ble 5 r.2.2.2.2.2.2.1.natAbs).map
    fun r => r.2.2.2.2.2.2.1.natAbs + 1).sum ≤ 2000 by decide +kernel)

theorem laneN_spec {q : Lin} {s : Sums} {k : Blk} (hs : SumsOK k.U k.H q s) {T j : ℕ} (hj : j < 1024)
    (h : laneN s k T j = true) : ∃ x vs vd n0 n1 hh : ℤ,
      x = k.poly (k.z + j) + 10000000000000000 * vs / (720575940379279360000 + vd) ∧
      |(x : ℝ) - (k.U + j * k.H) * 36525000000| ≤ 2.6e15 ∧
      |(k.poly (k.z + j) : ℝ) - (k.U + j * k.H) * 36525000000| ≤ 1.57e15 ∧
      |(x : ℝ) / 36525000000000000000000| ≤ 3 ∧
      |(vs : ℝ) / 2 ^ 56 - degS corrRows (k.U + j * k.H)| ≤ 2.6e-4 ∧
      |(vd : ℝ) / 2 ^ 56 - degS denRows (k.U + j * k.H)| ≤ 4.2e-5 ∧
      |(n0 : ℝ) / 2 ^ 56 - degS (nutRows0 q) (k.U + j * k.H)| ≤ 0.025 ∧
      |(n1 : ℝ) / 2 ^ 56 - degS (nutRows1 q) (k.U + j * k.H)| ≤ 3e-4 ∧
      |(hh : ℝ) / 2 ^ 56 - 10 ^ 11 * pval (tail1 (tail0 Data.earthL)) (x / 36525000000000000000000)| ≤
        leftTot 1500 1 (tail1 (tail0 Data.earthL)) + vErr 1 (tail1 (tail0 Data.earthL)) ∧
      |hh + 12635086232855042288074620928 +
        45276089780943541618206966808576 * x / 36525000000000000000000 +
        (10 * (n0 + x * n1 / 36525000000000000000000) - 148295465278778185351168) * 4848136811095360 /
          1000000000000000 -
        (k.h + 4 * j) * 11318780403245504441215985672077180928 / 1000000000| ≤ T := by
  have e : laneN s k T j = (
      if Nat.ble (Int.natAbs ((k.poly (k.z + j) + 10000000000000000 * valN s.vS s.cS (1023 - j) /
        (720575940379279360000 + valN s.vD s.cD (1023 - j))) - (k.U + j * k.H) * 36525000000))
        2600000000000000 = true then
      if Nat.ble (Int.natAbs (k.poly (k.z + j) - (k.U + j * k.H) * 36525000000))
        1570000000000000 = true then
      if Nat.ble (Int.natAbs (k.poly (k.z + j) + 10000000000000000 * valN s.vS s.cS (1023 - j) /
        (720575940379279360000 + valN s.vD s.cD (1023 - j)))) 109575000000000000000000 = true then
      hornI (1023 - j) ((k.poly (k.z + j) + 10000000000000000 * valN s.vS s.cS (1023 - j) /
        (720575940379279360000 + valN s.vD s.cD (1023 - j))) - (k.U + j * k.H) * 36525000000)
        (k.poly (k.z + j) + 10000000000000000 * valN s.vS s.cS (1023 - j) /
        (720575940379279360000 + valN s.vD s.cD (1023 - j))) s.tb fun h =>
        Nat.ble (Int.natAbs (h + 12635086232855042288074620928 +
          45276089780943541618206966808576 * (k.poly (k.z + j) + 10000000000000000 *
            valN s.vS s.cS (1023 - j) / (720575940379279360000 + valN s.vD s.cD (1023 - j))) /
            36525000000000000000000 +
          (10 * (valN s.v0 s.c0 (1023 - j) + (k.poly (k.z + j) + 10000000000000000 *
            valN s.vS s.cS (1023 - j) / (720575940379279360000 + valN s.vD s.cD (1023 - j))) *
            valN s.v1 s.c1 (1023 - j) / 36525000000000000000000) - 148295465278778185351168) *
            4848136811095360 / 1000000000000000 -
          (k.h + 4 * j) * 11318780403245504441215985672077180928 / 1000000000)) T
      else false else false else false) := by
    unfold laneN
    simp only [slet_eq, islet_eq, bsel_eq, int_add, int_sub, int_mul, int_div]
    rfl
  rw [e] at h
  clear e
  obtain ⟨x, hx⟩ : ∃ x, x = k.poly (k.z + j) + 10000000000000000 * valN s.vS s.cS (1023 - j) /
        (720575940379279360000 + valN s.vD s.cD (1023 - j)) := ⟨_, rfl⟩
  rw [← hx] at h
  split_ifs at h with h1 h3 h2
  have g1 := Nat.le_of_ble_eq_true h1
  have g2 := Nat.le_of_ble_eq_true h2
  have b1 : |(x : ℝ) - (k.U + j * k.H) * 36525000000| ≤ 2600000000000000 := by
    have : |x - (k.U + j * k.H) * 36525000000| ≤ 2600000000000000 := by
      rw [Int.abs_eq_natAbs]; exact_mod_cast g1
    exact_mod_cast this
  have b5 : |(k.poly (k.z + j) : ℝ) - (k.U + j * k.H) * 36525000000| ≤ 1570000000000000 := by
    have : |k.poly (k.z + j) - (k.U + j * k.H) * 36525000000| ≤ 1570000000000000 := by
      rw [Int.abs_eq_natAbs]; exact_mod_cast Nat.le_of_ble_eq_true h3
    exact_mod_cast this
  have b2 : |(x : ℝ)| ≤ 109575000000000000000000 := by
    have : |x| ≤ 109575000000000000000000 := by
      rw [Int.abs_eq_natAbs]; exact_mod_cast g2
    exact_mod_cast this
  have b3 : |(x : ℝ) / 36525000000000000000000| ≤ 3 := by
    rw [abs_div, abs_of_pos (by norm_num : (0 : ℝ) < 36525000000000000000000), div_le_iff₀ (by norm_num)]
    exact b2.trans (by norm_num)
  have b4 : |((k.U + j * k.H : ℤ) : ℝ)| ≤ 4e12 := by
    have := abs_sub_abs_le_abs_sub (((k.U : ℝ) + j * k.H) * 36525000000) (x : ℝ)
    rw [abs_sub_comm, abs_mul, abs_of_pos (by norm_num : (0 : ℝ) < 36525000000)] at this
    push_cast
    norm_num
    linarith
  obtain ⟨hh, eh, bh⟩ := hornI_spec 1500 k.U k.H hj (D := x - (k.U + j * k.H) * 36525000000) (x := x)
    (by push_cast; exact b1.trans (by norm_num)) rfl b4 b3 (tail1 (tail0 Data.earthL)) 1 s.tb fits_earth hs.tb
  rw [eh] at h
  refine ⟨x, valN s.vS s.cS (1023 - j), valN s.vD s.cD (1023 - j), valN s.v0 s.c0 (1023 - j),
    valN s.v1 s.c1 (1023 - j), hh, hx, b1.trans (by norm_num), b5.trans (by norm_num), b3,
    (valN_spec hs.vS hs.cS hj).trans (degA_le degA_corr (by norm_num)),
    (valN_spec hs.vD hs.cD hj).trans (degA_le degA_den (by norm_num)),
    (valN_spec hs.v0 hs.c0 hj).trans (degA_le (degA_nut0 q) (by norm_num)),
    (valN_spec hs.v1 hs.c1 hj).trans (degA_le (degA_nut1 q) (by norm_num)), ?_, ?_⟩
  · rw [Nat.cast_one, one_mul] at bh
    exact bh
  · rw [Int.abs_eq_natAbs]
    exact_mod_cast Nat.le_of_ble_eq_true h

end Verif

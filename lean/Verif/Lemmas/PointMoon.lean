import Verif.Lemmas.PointSun
import Verif.Lemmas.Lunar

/-!
# The Moon and the nutation at one time

A wave is a coefficient in units of `1e-12` and an angle in units of `1e-12` degree.
-/

namespace Verif
open Real

set_option exponentiation.threshold 500

/-- Coefficient and angle. -/
abbrev Wave := ℤ × ℤ

def halfT : ℤ → ℤ
  | .ofNat _ => 0
  | .negSucc _ => 18000000000000000000000000

def sinRow (w : Wave) : DRow := (w.1.natAbs, w.2 * 100000000000 + quart w.1, 0)
def cosRow (w : Wave) : DRow := (w.1.natAbs, w.2 * 100000000000 + halfT w.1, 0)

theorem sinRow_eq (w : Wave) (u : ℝ) : ((sinRow w).1 : ℝ) * cos (dToR (((sinRow w).2.1 + (sinRow w).2.2 * u) / 10 ^ 23)) =
    w.1 * sin (dToR (w.2 / 10 ^ 12)) := by
  obtain ⟨c, A⟩ := w
  cases c with
  | ofNat n =>
    have e : dToR (((sinRow (Int.ofNat n, A)).2.1 + (sinRow (Int.ofNat n, A)).2.2 * u) / 10 ^ 23) =
        dToR (A / 10 ^ 12) - π / 2 := by
      simp only [sinRow, quart, dToR]; push_cast; ring
    rw [e, cos_sub_pi_div_two]
    simp [sinRow]
  | negSucc n =>
    have e : dToR (((sinRow (Int.negSucc n, A)).2.1 + (sinRow (Int.negSucc n, A)).2.2 * u) / 10 ^ 23) =
        dToR (A / 10 ^ 12) + π / 2 := by
      simp only [sinRow, quart, dToR]; push_cast; ring
    rw [e, cos_add_pi_div_two]
    simp only [sinRow, Int.natAbs_negSucc, Int.cast_negSucc]
    ring

theorem cosRow_eq (w : Wave) (u : ℝ) : ((cosRow w).1 : ℝ) * cos (dToR (((cosRow w).2.1 + (cosRow w).2.2 * u) / 10 ^ 23)) =
    w.1 * cos (dToR (w.2 / 10 ^ 12)) := by
  obtain ⟨c, A⟩ := w
  cases c with
  | ofNat n =>
    have e : dToR (((cosRow (Int.ofNat n, A)).2.1 + (cosRow (Int.ofNat n, A)).2.2 * u) / 10 ^ 23) =
        dToR (A / 10 ^ 12) := by
      simp only [cosRow, halfT, dToR]; push_cast; ring
    rw [e]
    simp [cosRow]
  | negSucc n =>
    have e : dToR (((cosRow (Int.negSucc n, A)).2.1 + (cosRow (Int.negSucc n, A)).2.2 * u) / 10 ^ 23) =
        dToR (A / 10 ^ 12) + π := by
      simp only [cosRow, halfT, dToR]; push_cast; ring
    rw [e, cos_add_pi]
    simp only [cosRow, Int.natAbs_negSucc, Int.cast_negSucc]
    ring

/-- The wave `w` stands for the coefficient `x` and the angle `θ`. -/
def WaveOK (x θ : ℝ) (w : Wave) : Prop :=
  |x - w.1 / 10 ^ 12| ≤ 2e-4 ∧ |θ - dToR (w.2 / 10 ^ 12)| ≤ 2e-12 ∧ |(w.1 : ℝ)| ≤ 4e19

theorem cos_lip (x y : ℝ) : |cos x - cos y| ≤ |x - y| := abs_cos_sub_cos_le x y

theorem WaveOK.near {x θ : ℝ} {w : Wave} (h : WaveOK x θ w) {f : ℝ → ℝ} (hf : ∀ x, |f x| ≤ 1)
    (hl : ∀ x y, |f x - f y| ≤ |x - y|) :
    |x * f θ - w.1 * f (dToR (w.2 / 10 ^ 12)) / 10 ^ 12| ≤ 3e-4 := by
  obtain ⟨h1, h2, h3⟩ := h
  have l := (hl θ (dToR (w.2 / 10 ^ 12))).trans h2
  have b := hf θ
  generalize f (dToR (w.2 / 10 ^ 12)) = z at *
  generalize f θ = y at *
  generalize (w.1 : ℝ) = c at *
  rw [show x * y - c * z / 10 ^ 12 = (x - c / 10 ^ 12) * y + c / 10 ^ 12 * (y - z) by ring]
  refine (abs_add_le _ _).trans ?_
  rw [abs_mul, abs_mul, abs_div, abs_of_pos (by norm_num : (0 : ℝ) < 10 ^ 12)]
  calc |x - c / 10 ^ 12| * |y| + |c| / 10 ^ 12 * |y - z| ≤ 2e-4 * 1 + 4e19 / 10 ^ 12 * 2e-12 := by
        gcongr
    _ ≤ 3e-4 := by norm_num

/-- Sum of a list of waves. -/
noncomputable def waveS (f : ℝ → ℝ) (l : List Wave) : ℝ := (l.map fun w : Wave => (w.1 : ℝ) * f (dToR (w.2 / 10 ^ 12))).sum

theorem degS_sin (l : List Wave) (u : ℝ) : degS (l.map sinRow) u = waveS sin l := by
  unfold degS waveS
  rw [List.map_map]
  exact congrArg List.sum (List.map_congr_left fun w _ => sinRow_eq w u)

theorem degS_cos (l : List Wave) (u : ℝ) : degS (l.map cosRow) u = waveS cos l := by
  unfold degS waveS
  rw [List.map_map]
  exact congrArg List.sum (List.map_congr_left fun w _ => cosRow_eq w u)

theorem waves_near {α : Type} (l : List α) (x θ : α → ℝ) (w : α → Wave) (h : ∀ r ∈ l, WaveOK (x r) (θ r) (w r))
    {f : ℝ → ℝ} (hf : ∀ x, |f x| ≤ 1) (hl : ∀ x y, |f x - f y| ≤ |x - y|) :
    |(l.map fun r => x r * f (θ r)).sum - waveS f (l.map w) / 10 ^ 12| ≤ 3e-4 * (l.length : ℝ) := by
  unfold waveS
  induction l with
  | nil => simp
  | cons r l ih =>
    have i := ih fun x hx => h x (List.mem_cons_of_mem _ hx)
    have j := (h r List.mem_cons_self).near hf hl
    simp only [List.map_cons, List.sum_cons, List.length_cons, Nat.cast_add, Nat.cast_one]
    rw [add_div, add_sub_add_comm]
    refine (abs_add_le _ _).trans ((add_le_add j i).trans (le_of_eq ?_))
    ring

/-! ## Angles -/

/-- The angles at one time, units of `1e-12` degree; `E` in units of `1e-12`; `t` the time in units of `1e-12` millennium. -/
structure MoonPt where
  L : ℤ
  D : ℤ
  M : ℤ
  P : ℤ
  F : ℤ
  O : ℤ
  A1 : ℤ
  A2 : ℤ
  A3 : ℤ
  E : ℤ
  t : ℤ

/-- The angles are right at the time `T`. -/
structure MoonPt.OK (q : MoonPt) (T : ℝ) : Prop where
  L : |polyR kL1 T - dToR (q.L / 10 ^ 12)| ≤ 2e-14
  D : |polyR kD T - dToR (q.D / 10 ^ 12)| ≤ 2e-14
  M : |polyR kM T - dToR (q.M / 10 ^ 12)| ≤ 2e-14
  P : |polyR kM1 T - dToR (q.P / 10 ^ 12)| ≤ 2e-14
  F : |polyR kF T - dToR (q.F / 10 ^ 12)| ≤ 2e-14
  O : |polyR ko T - dToR (q.O / 10 ^ 12)| ≤ 2e-14
  A1 : |polyR kA1 T - dToR (q.A1 / 10 ^ 12)| ≤ 2e-14
  A2 : |polyR kA2 T - dToR (q.A2 / 10 ^ 12)| ≤ 2e-14
  A3 : |polyR kA3 T - dToR (q.A3 / 10 ^ 12)| ≤ 2e-14
  E : |(1 - 0.002516 * T - 0.0000074 * T ^ 2) - q.E / 10 ^ 12| ≤ 1e-12
  Er : |(q.E : ℝ) / 10 ^ 12| ≤ 1.1
  t : |T / 10 - q.t / 10 ^ 12| ≤ 1e-12
  T : |T| ≤ 20

theorem pt_deg {p x : ℝ} {v : ℤ} (hp : p = dToR x) (h : |x * 10 ^ 12 - v| ≤ 1) : |p - dToR (v / 10 ^ 12)| ≤ 2e-14 := by
  rw [hp, show dToR x - dToR (v / 10 ^ 12) = dToR ((x * 10 ^ 12 - v) / 10 ^ 12) by unfold dToR; ring, dToR_abs]
  unfold dToR
  rw [abs_div, abs_of_pos (by norm_num : (0 : ℝ) < 10 ^ 12)]
  have p := pi_lt_d2
  calc |x * 10 ^ 12 - v| / 10 ^ 12 * π / 180 ≤ 1 / 10 ^ 12 * 3.15 / 180 := by gcongr
    _ ≤ 2e-14 := by norm_num

/-- Weight of a row in units of `1e-12`. -/
def MoonPt.wt (q : MoonPt) (m : ℤ) : ℤ :=
  if |m| = 1 then q.E else if |m| = 2 then q.E * q.E / 1000000000000 else 1000000000000

theorem wt_near {q : MoonPt} {T : ℝ} (h : q.OK T) (m : ℤ) :
    |lunarFactor (lunarConstants T) m - q.wt m / 10 ^ 12| ≤ 4e-12 ∧ |(q.wt m : ℝ)| ≤ 1.3e12 := by
  have e : (lunarConstants T).E = 1 - 0.002516 * T - 0.0000074 * T ^ 2 := by
    simp only [lunarConstants, polyR, horner]; ring
  have e2 : (lunarConstants T).E2 = (lunarConstants T).E * (lunarConstants T).E := rfl
  have hE := h.E
  have hr := h.Er
  unfold lunarFactor MoonPt.wt
  rw [e2, e]
  generalize 1 - 0.002516 * T - 0.0000074 * T ^ 2 = x at *
  have hx : |x| ≤ 1.11 := by
    have := abs_add_le (x - (q.E : ℝ) / 10 ^ 12) ((q.E : ℝ) / 10 ^ 12)
    rw [sub_add_cancel] at this
    norm_num at this hE hr ⊢; linarith
  split_ifs with h1 h2
  · refine ⟨hE.trans (by norm_num), ?_⟩
    rw [abs_div, abs_of_pos (by norm_num : (0 : ℝ) < 10 ^ 12), div_le_iff₀ (by norm_num)] at hr
    exact hr.trans (by norm_num)
  · have f := ediv_near (q.E * q.E) (b := 1000000000000) (by norm_num)
    push_cast at f
    generalize (((q.E * q.E / 1000000000000 : ℤ)) : ℝ) = z at *
    generalize hy : (q.E : ℝ) / 10 ^ 12 = y at *
    have hy' : (q.E : ℝ) = y * 10 ^ 12 := by rw [← hy]; ring
    rw [hy'] at f
    have yy : |y * y| ≤ 1.1 * 1.1 := by rw [abs_mul]; gcongr
    have f1 : |y * y - z / 10 ^ 12| ≤ 1e-12 := by
      rw [show y * y - z / 10 ^ 12 = -((z - y * 10 ^ 12 * (y * 10 ^ 12) / 1000000000000) / 10 ^ 12) by ring, abs_neg, abs_div,
        abs_of_pos (by norm_num : (0 : ℝ) < 10 ^ 12), div_le_iff₀ (by norm_num)]
      exact f.trans (by norm_num)
    constructor
    · rw [show x * x - z / 10 ^ 12 = (x - y) * x + y * (x - y) + (y * y - z / 10 ^ 12) by ring]
      refine (abs_add_le _ _).trans ((add_le_add (abs_add_le _ _) f1).trans ?_)
      rw [abs_mul, abs_mul]
      calc |x - y| * |x| + |y| * |x - y| + 1e-12 ≤ 1e-12 * 1.11 + 1.1 * 1e-12 + 1e-12 := by gcongr
        _ ≤ 4e-12 := by norm_num
    · have := abs_le.1 f1
      have := abs_le.1 yy
      rw [abs_le]
      norm_num at *
      constructor <;> linarith
  · norm_num

theorem mul_near {x y : ℝ} (m : ℤ) (h : |x - y| ≤ 2e-14) : |m * x - m * y| ≤ 2e-14 * (m.natAbs : ℝ) := by
  rw [← mul_sub, abs_mul, Nat.cast_natAbs, Int.cast_abs, mul_comm]
  exact mul_le_mul_of_nonneg_right h (abs_nonneg _)

theorem dToR_comb (d m p f D M P F : ℝ) : dToR ((d * D + m * M + p * P + f * F) / 10 ^ 12) =
    d * dToR (D / 10 ^ 12) + m * dToR (M / 10 ^ 12) + p * dToR (P / 10 ^ 12) + f * dToR (F / 10 ^ 12) := by
  unfold dToR; ring

/-- The wave of a row of the Moon. -/
def MoonPt.row (q : MoonPt) (k d m p f : ℤ) : Wave := (k * q.wt m, d * q.D + m * q.M + p * q.P + f * q.F)

theorem row_ok {q : MoonPt} {T : ℝ} (h : q.OK T) {k d m p f : ℤ} (hk : k.natAbs ≤ 30000000)
    (hn : d.natAbs + m.natAbs + p.natAbs + f.natAbs ≤ 20) :
    WaveOK (k * lunarFactor (lunarConstants T) m) (lunarArg T d m p f) (q.row k d m p f) := by
  obtain ⟨w1, w2⟩ := wt_near h m
  have hk' : |(k : ℝ)| ≤ 30000000 := by
    rw [← Int.cast_abs, ← Nat.cast_natAbs]; exact_mod_cast hk
  have hn' : (d.natAbs : ℝ) + m.natAbs + p.natAbs + f.natAbs ≤ 20 := by exact_mod_cast hn
  unfold MoonPt.row
  refine ⟨?_, ?_, ?_⟩
  · simp only
    push_cast
    rw [mul_div_assoc, ← mul_sub, abs_mul]
    calc |(k : ℝ)| * _ ≤ 30000000 * 4e-12 := by gcongr
      _ ≤ 2e-4 := by norm_num
  · simp only
    push_cast
    rw [dToR_comb]
    unfold lunarArg
    have a1 := mul_near d h.D
    have a2 := mul_near m h.M
    have a3 := mul_near p h.P
    have a4 := mul_near f h.F
    generalize dToR _ = y1 at *
    generalize dToR _ = y2 at *
    generalize dToR _ = y3 at *
    generalize dToR _ = y4 at *
    generalize polyR kD T = x1 at *
    generalize polyR kM T = x2 at *
    generalize polyR kM1 T = x3 at *
    generalize polyR kF T = x4 at *
    rw [show (d : ℝ) * x1 + m * x2 + p * x3 + f * x4 - (d * y1 + m * y2 + p * y3 + f * y4) =
      (d * x1 - d * y1) + (m * x2 - m * y2) + (p * x3 - p * y3) + (f * x4 - f * y4) by ring]
    refine (abs_add_le _ _).trans ((add_le_add ((abs_add_le _ _).trans (add_le_add (abs_add_le _ _) le_rfl)) le_rfl).trans ?_)
    refine (add_le_add (add_le_add (add_le_add a1 a2) a3) a4).trans ?_
    norm_num at hn' ⊢
    linarith
  · simp only
    push_cast
    rw [abs_mul]
    calc |(k : ℝ)| * _ ≤ 30000000 * 1.3e12 := by gcongr
      _ ≤ 4e19 := by norm_num

/-! ## Sums of the Moon -/

def MoonPt.lonW (q : MoonPt) : List Wave :=
  Data.lunarLR.map fun r : LRow => q.row r.2.2.2.2.1 r.1 r.2.1 r.2.2.1 r.2.2.2.1

def MoonPt.radW (q : MoonPt) : List Wave :=
  Data.lunarLR.map fun r : LRow => q.row r.2.2.2.2.2 r.1 r.2.1 r.2.2.1 r.2.2.2.1

def MoonPt.latW (q : MoonPt) : List Wave :=
  Data.lunarB.map fun r : BRow => q.row r.2.2.2.2 r.1 r.2.1 r.2.2.1 r.2.2.2.1

def MoonPt.lonX (q : MoonPt) : List Wave :=
  [(3958000000000000, q.A1), (1962000000000000, q.L - q.F), (318000000000000, q.A2)]

def MoonPt.latX (q : MoonPt) : List Wave :=
  [(-2235000000000000, q.L), (382000000000000, q.A3), (175000000000000, q.A1 - q.F), (175000000000000, q.A1 + q.F),
    (127000000000000, q.L - q.P), (-115000000000000, q.L + q.P)]

theorem lunarLR_small : (∀ r ∈ Data.lunarLR, r.2.2.2.2.1.natAbs ≤ 30000000 ∧ r.2.2.2.2.2.natAbs ≤ 30000000 ∧
    r.1.natAbs + r.2.1.natAbs + r.2.2.1.natAbs + r.2.2.2.1.natAbs ≤ 20) ∧ Data.lunarLR.length ≤ 100 := by decide +kernel

theorem lunarB_small : (∀ r ∈ Data.lunarB, r.2.2.2.2.natAbs ≤ 30000000 ∧
    r.1.natAbs + r.2.1.natAbs + r.2.2.1.natAbs + r.2.2.2.1.natAbs ≤ 20) ∧ Data.lunarB.length ≤ 100 := by decide +kernel

theorem len100 {n : ℕ} (h : n ≤ 100) {x : ℝ} (hx : x ≤ 3e-4 * (n : ℝ)) : x ≤ 0.03 := by
  have : (n : ℝ) ≤ 100 := by exact_mod_cast h
  norm_num at hx ⊢; linarith

theorem lonSum_pt {q : MoonPt} {T : ℝ} (h : q.OK T) : |lonSum T - waveS sin q.lonW / 10 ^ 12| ≤ 0.03 :=
  len100 lunarLR_small.2 (waves_near Data.lunarLR _ _ _ (fun r hr => row_ok h (lunarLR_small.1 r hr).1 (lunarLR_small.1 r hr).2.2)
    abs_sin_le_one sin_lip)

theorem radSum_pt {q : MoonPt} {T : ℝ} (h : q.OK T) : |radSum T - waveS cos q.radW / 10 ^ 12| ≤ 0.03 :=
  len100 lunarLR_small.2 (waves_near Data.lunarLR _ _ _ (fun r hr => row_ok h (lunarLR_small.1 r hr).2.1 (lunarLR_small.1 r hr).2.2)
    abs_cos_le_one cos_lip)

theorem latSum_pt {q : MoonPt} {T : ℝ} (h : q.OK T) : |latSum T - waveS sin q.latW / 10 ^ 12| ≤ 0.03 :=
  len100 lunarB_small.2 (waves_near Data.lunarB _ _ _ (fun r hr => row_ok h (lunarB_small.1 r hr).1 (lunarB_small.1 r hr).2)
    abs_sin_le_one sin_lip)

theorem x_sin {a θ : ℝ} {A c : ℤ} (ha : |a| ≤ 4000) (hc : (c : ℝ) = a * 10 ^ 12)
    (h : |θ - dToR (A / 10 ^ 12)| ≤ 4e-14) : |a * sin θ - (c : ℝ) * sin (dToR ((A : ℝ) / 10 ^ 12)) / 10 ^ 12| ≤ 1e-9 := by
  have l := (sin_lip θ (dToR (A / 10 ^ 12))).trans h
  rw [hc, show a * sin θ - a * 10 ^ 12 * sin (dToR (A / 10 ^ 12)) / 10 ^ 12 = a * (sin θ - sin (dToR (A / 10 ^ 12))) by ring,
    abs_mul]
  exact (mul_le_mul ha l (abs_nonneg _) (by norm_num)).trans (by norm_num)

theorem dToR_sub' (A B : ℤ) : dToR (((A - B : ℤ) : ℝ) / 10 ^ 12) = dToR (A / 10 ^ 12) - dToR (B / 10 ^ 12) := by
  unfold dToR; push_cast; ring

theorem dToR_add' (A B : ℤ) : dToR (((A + B : ℤ) : ℝ) / 10 ^ 12) = dToR (A / 10 ^ 12) + dToR (B / 10 ^ 12) := by
  unfold dToR; push_cast; ring

theorem sub_pt {x y : ℝ} {A B : ℤ} (h : |x - dToR (A / 10 ^ 12)| ≤ 2e-14) (h2 : |y - dToR (B / 10 ^ 12)| ≤ 2e-14) :
    |x - y - dToR (((A - B : ℤ) : ℝ) / 10 ^ 12)| ≤ 4e-14 := by
  rw [dToR_sub', sub_sub_sub_comm]
  exact (abs_sub _ _).trans ((add_le_add h h2).trans (by norm_num))

theorem add_pt {x y : ℝ} {A B : ℤ} (h : |x - dToR (A / 10 ^ 12)| ≤ 2e-14) (h2 : |y - dToR (B / 10 ^ 12)| ≤ 2e-14) :
    |x + y - dToR (((A + B : ℤ) : ℝ) / 10 ^ 12)| ≤ 4e-14 := by
  rw [dToR_add', add_sub_add_comm]
  exact (abs_add_le _ _).trans ((add_le_add h h2).trans (by norm_num))

theorem two_four {x : ℝ} (h : x ≤ 2e-14) : x ≤ 4e-14 := h.trans (by norm_num)

theorem lonX_pt {q : MoonPt} {T : ℝ} (h : q.OK T) :
    |3958 * sin (polyR kA1 T) + 1962 * sin (polyR kL1 T - polyR kF T) + 318 * sin (polyR kA2 T) -
      waveS sin q.lonX / 10 ^ 12| ≤ 1e-8 := by
  have a1 := x_sin (a := 3958) (c := 3958000000000000) (by norm_num) (by norm_num) (two_four h.A1)
  have a2 := x_sin (a := 1962) (c := 1962000000000000) (by norm_num) (by norm_num) (sub_pt h.L h.F)
  have a3 := x_sin (a := 318) (c := 318000000000000) (by norm_num) (by norm_num) (two_four h.A2)
  unfold waveS MoonPt.lonX
  simp only [List.map_cons, List.map_nil, List.sum_cons, List.sum_nil, add_zero]
  rw [abs_le] at *
  norm_num at *
  constructor <;> linarith [a1.1, a1.2, a2.1, a2.2, a3.1, a3.2]

theorem latX_pt {q : MoonPt} {T : ℝ} (h : q.OK T) :
    |-2235 * sin (polyR kL1 T) + 382 * sin (polyR kA3 T) + 175 * sin (polyR kA1 T - polyR kF T) +
      175 * sin (polyR kA1 T + polyR kF T) + 127 * sin (polyR kL1 T - polyR kM1 T) -
      115 * sin (polyR kL1 T + polyR kM1 T) - waveS sin q.latX / 10 ^ 12| ≤ 1e-8 := by
  have a1 := x_sin (a := -2235) (c := -2235000000000000) (by norm_num) (by norm_num) (two_four h.L)
  have a2 := x_sin (a := 382) (c := 382000000000000) (by norm_num) (by norm_num) (two_four h.A3)
  have a3 := x_sin (a := 175) (c := 175000000000000) (by norm_num) (by norm_num) (sub_pt h.A1 h.F)
  have a4 := x_sin (a := 175) (c := 175000000000000) (by norm_num) (by norm_num) (add_pt h.A1 h.F)
  have a5 := x_sin (a := 127) (c := 127000000000000) (by norm_num) (by norm_num) (sub_pt h.L h.P)
  have a6 := x_sin (a := -115) (c := -115000000000000) (by norm_num) (by norm_num) (add_pt h.L h.P)
  unfold waveS MoonPt.latX
  simp only [List.map_cons, List.map_nil, List.sum_cons, List.sum_nil, add_zero]
  rw [abs_le] at *
  norm_num at *
  constructor <;> linarith [a1.1, a1.2, a2.1, a2.2, a3.1, a3.2, a4.1, a4.2, a5.1, a5.2, a6.1, a6.2]

theorem waveS_append (f : ℝ → ℝ) (a b : List Wave) : waveS f (a ++ b) = waveS f a + waveS f b := by
  unfold waveS; rw [List.map_append, List.sum_append]

/-! ## The nutation -/

def MoonPt.nutA (q : MoonPt) (r : NutRow) : ℤ :=
  r.1 * q.D + r.2.1 * q.M + r.2.2.1 * q.P + r.2.2.2.1 * q.F + r.2.2.2.2.1 * q.O

def MoonPt.psiW (q : MoonPt) : List Wave :=
  Data.nutationTable.map fun r : NutRow => (r.2.2.2.2.2.1 * 1000000000000 + r.2.2.2.2.2.2.1 * q.t, q.nutA r)

def MoonPt.epsW (q : MoonPt) : List Wave :=
  Data.nutationTable.map fun r : NutRow => (r.2.2.2.2.2.2.2.1 * 1000000000000 + r.2.2.2.2.2.2.2.2 * q.t, q.nutA r)

theorem nut_small_rows : (∀ r ∈ Data.nutationTable, r.2.2.2.2.2.1.natAbs ≤ 200000 ∧ r.2.2.2.2.2.2.1.natAbs ≤ 2000 ∧
    r.2.2.2.2.2.2.2.1.natAbs ≤ 200000 ∧ r.2.2.2.2.2.2.2.2.natAbs ≤ 2000 ∧
    r.1.natAbs + r.2.1.natAbs + r.2.2.1.natAbs + r.2.2.2.1.natAbs + r.2.2.2.2.1.natAbs ≤ 20) ∧
    Data.nutationTable.length ≤ 100 := by decide +kernel

theorem nut_row_ok {q : MoonPt} {T : ℝ} (h : q.OK T) {r : NutRow} {k k' : ℤ} (hk : k.natAbs ≤ 200000) (hk' : k'.natAbs ≤ 2000)
    (hn : r.1.natAbs + r.2.1.natAbs + r.2.2.1.natAbs + r.2.2.2.1.natAbs + r.2.2.2.2.1.natAbs ≤ 20) :
    WaveOK (k + k' * (T / 10)) (nutArg T r) (k * 1000000000000 + k' * q.t, q.nutA r) := by
  have ht := h.t
  have hT := h.T
  have b : |(k : ℝ)| ≤ 200000 := by rw [← Int.cast_abs, ← Nat.cast_natAbs]; exact_mod_cast hk
  have b' : |(k' : ℝ)| ≤ 2000 := by rw [← Int.cast_abs, ← Nat.cast_natAbs]; exact_mod_cast hk'
  have hn' : (r.1.natAbs : ℝ) + r.2.1.natAbs + r.2.2.1.natAbs + r.2.2.2.1.natAbs + r.2.2.2.2.1.natAbs ≤ 20 := by
    exact_mod_cast hn
  have hq : |(q.t : ℝ)| ≤ 3e12 := by
    have e : (q.t : ℝ) = (T / 10 - (T / 10 - q.t / 10 ^ 12)) * 10 ^ 12 := by ring
    rw [abs_le] at ht hT ⊢
    rw [e]
    norm_num at *
    constructor <;> linarith
  refine ⟨?_, ?_, ?_⟩
  · simp only
    push_cast
    rw [show (k : ℝ) + k' * (T / 10) - (k * 1000000000000 + k' * q.t) / 10 ^ 12 = k' * (T / 10 - q.t / 10 ^ 12) by ring, abs_mul]
    calc |(k' : ℝ)| * _ ≤ 2000 * 1e-12 := by gcongr
      _ ≤ 2e-4 := by norm_num
  · simp only [MoonPt.nutA]
    push_cast
    have a1 := mul_near r.1 h.D
    have a2 := mul_near r.2.1 h.M
    have a3 := mul_near r.2.2.1 h.P
    have a4 := mul_near r.2.2.2.1 h.F
    have a5 := mul_near r.2.2.2.2.1 h.O
    have e : dToR ((r.1 * q.D + r.2.1 * q.M + r.2.2.1 * q.P + r.2.2.2.1 * q.F + r.2.2.2.2.1 * q.O) / 10 ^ 12) =
      r.1 * dToR (q.D / 10 ^ 12) + r.2.1 * dToR (q.M / 10 ^ 12) + r.2.2.1 * dToR (q.P / 10 ^ 12) +
      r.2.2.2.1 * dToR (q.F / 10 ^ 12) + r.2.2.2.2.1 * dToR (q.O / 10 ^ 12) := by unfold dToR; ring
    rw [e]
    unfold nutArg
    generalize dToR _ = y1 at *
    generalize dToR _ = y2 at *
    generalize dToR _ = y3 at *
    generalize dToR _ = y4 at *
    generalize dToR _ = y5 at *
    generalize polyR kD T = x1 at *
    generalize polyR kM T = x2 at *
    generalize polyR kM1 T = x3 at *
    generalize polyR kF T = x4 at *
    generalize polyR ko T = x5 at *
    rw [show x1 * r.1 + x2 * r.2.1 + x3 * r.2.2.1 + x4 * r.2.2.2.1 + x5 * r.2.2.2.2.1 -
      (r.1 * y1 + r.2.1 * y2 + r.2.2.1 * y3 + r.2.2.2.1 * y4 + r.2.2.2.2.1 * y5) =
      (r.1 * x1 - r.1 * y1) + (r.2.1 * x2 - r.2.1 * y2) + (r.2.2.1 * x3 - r.2.2.1 * y3) +
      (r.2.2.2.1 * x4 - r.2.2.2.1 * y4) + (r.2.2.2.2.1 * x5 - r.2.2.2.2.1 * y5) by ring]
    refine (abs_add_le _ _).trans ((add_le_add ((abs_add_le _ _).trans (add_le_add ((abs_add_le _ _).trans
      (add_le_add (abs_add_le _ _) le_rfl)) le_rfl)) le_rfl).trans ?_)
    refine (add_le_add (add_le_add (add_le_add (add_le_add a1 a2) a3) a4) a5).trans ?_
    norm_num at hn' ⊢
    linarith
  · simp only
    push_cast
    refine (abs_add_le _ _).trans ?_
    rw [abs_mul, abs_mul, abs_of_pos (by norm_num : (0 : ℝ) < 1000000000000)]
    calc |(k : ℝ)| * 1000000000000 + |(k' : ℝ)| * |(q.t : ℝ)| ≤ 200000 * 1000000000000 + 2000 * 3e12 := by gcongr
      _ ≤ 4e19 := by norm_num

theorem scale_sum {α : Type} (l : List α) (f g : α → ℝ) (h : ∀ r, 10 ^ 4 * f r = g r) : 10 ^ 4 * (l.map f).sum = (l.map g).sum := by
  rw [← List.sum_map_mul_left]
  exact congrArg List.sum (List.map_congr_left fun r _ => h r)

theorem nutPsi_pt {q : MoonPt} {T : ℝ} (h : q.OK T) : |10 ^ 4 * nutPsi T - waveS sin q.psiW / 10 ^ 12| ≤ 0.03 := by
  have := len100 nut_small_rows.2 (waves_near Data.nutationTable _ _ _ (fun r hr => nut_row_ok h (nut_small_rows.1 r hr).1
    (nut_small_rows.1 r hr).2.1 (nut_small_rows.1 r hr).2.2.2.2) abs_sin_le_one sin_lip)
  unfold nutPsi
  rw [scale_sum _ _ _ fun r => ?_]
  · exact this
  · ring

theorem nutEps_pt {q : MoonPt} {T : ℝ} (h : q.OK T) : |10 ^ 4 * nutEps T - waveS cos q.epsW / 10 ^ 12| ≤ 0.03 := by
  have := len100 nut_small_rows.2 (waves_near Data.nutationTable _ _ _ (fun r hr => nut_row_ok h (nut_small_rows.1 r hr).2.2.1
    (nut_small_rows.1 r hr).2.2.2.1 (nut_small_rows.1 r hr).2.2.2.2) abs_cos_le_one cos_lip)
  unfold nutEps
  rw [scale_sum _ _ _ fun r => ?_]
  · exact this
  · ring

/-! ## Evaluation -/

/-- The sum of the rows is within `w` of `c`, and the amplitudes are moderate. -/
noncomputable def nearN (c : ℤ) (w : ℕ) (l : List DRow) : Bool :=
  and (Nat.ble (degA l) 1000000000000000000000)
    (pdN 0 l fun v => Nat.ble (Int.natAbs (Int.sub v (Int.mul c 340282366920938463463374607431768211456))) (Nat.shiftLeft w 128))

theorem nearN_spec {c : ℤ} {w : ℕ} {l : List DRow} (h : nearN c w l = true) : |degS l 0 - c| ≤ (w : ℝ) + 3000 := by
  unfold nearN at h
  obtain ⟨ha, h⟩ := Bool.and_eq_true_iff.1 h
  have ha := Nat.le_of_ble_eq_true ha
  obtain ⟨v, e, b⟩ := pdN_spec 0 l
  rw [e] at h
  have h := Nat.le_of_ble_eq_true h
  rw [int_sub, int_mul, show Nat.shiftLeft w 128 = w * 2 ^ 128 from Nat.shiftLeft_eq w 128] at h
  have h' : |(v : ℝ) - c * 2 ^ 128| ≤ (w : ℝ) * 2 ^ 128 := by
    have : ((v - c * 340282366920938463463374607431768211456).natAbs : ℝ) ≤ (w * 2 ^ 128 : ℕ) := by exact_mod_cast h
    rw [Nat.cast_natAbs, Int.cast_abs, Int.cast_sub, Int.cast_mul, Nat.cast_mul, Nat.cast_pow] at this
    refine le_trans (le_of_eq ?_) (this.trans (by norm_num))
    norm_num
  have g : |(v : ℝ) / 2 ^ 128 - c| ≤ (w : ℝ) := by
    rw [show (v : ℝ) / 2 ^ 128 - c = (v - c * 2 ^ 128) / 2 ^ 128 by field_simp, abs_div,
      abs_of_pos (by positivity : (0 : ℝ) < 2 ^ 128), div_le_iff₀ (by positivity)]
    exact h'
  have a' : (degA l : ℝ) ≤ 1e21 := by
    have : (degA l : ℝ) ≤ (1000000000000000000000 : ℕ) := by exact_mod_cast ha
    exact this.trans (by norm_num)
  rw [Int.cast_zero] at b
  rw [show degS l 0 - c = ((v : ℝ) / 2 ^ 128 - c) - ((v : ℝ) / 2 ^ 128 - degS l 0) by ring]
  refine (abs_sub _ _).trans (add_le_add g (b.trans ?_))
  exact (mul_le_mul_of_nonneg_left a' (by norm_num)).trans (by norm_num)

theorem sin_near {c : ℤ} {w : ℕ} {l : List Wave} (h : nearN c w (l.map sinRow) = true) :
    |waveS sin l / 10 ^ 12 - c / 10 ^ 12| ≤ ((w : ℝ) + 3000) / 10 ^ 12 := by
  have := nearN_spec h
  rw [degS_sin] at this
  rw [← sub_div, abs_div, abs_of_pos (by norm_num : (0 : ℝ) < 10 ^ 12)]
  gcongr

theorem cos_near {c : ℤ} {w : ℕ} {l : List Wave} (h : nearN c w (l.map cosRow) = true) :
    |waveS cos l / 10 ^ 12 - c / 10 ^ 12| ≤ ((w : ℝ) + 3000) / 10 ^ 12 := by
  have := nearN_spec h
  rw [degS_cos] at this
  rw [← sub_div, abs_div, abs_of_pos (by norm_num : (0 : ℝ) < 10 ^ 12)]
  gcongr

/-- Sum of the series of the longitude, millionths of a degree. -/
theorem lon_at {q : MoonPt} {T : ℝ} (h : q.OK T) {c : ℤ} {w : ℕ} (hw : nearN c w ((q.lonW ++ q.lonX).map sinRow) = true) :
    |lonSum T + (3958 * sin (polyR kA1 T) + 1962 * sin (polyR kL1 T - polyR kF T) + 318 * sin (polyR kA2 T)) -
      c / 10 ^ 12| ≤ ((w : ℝ) + 3000) / 10 ^ 12 + 0.031 := by
  have a := sin_near hw
  rw [waveS_append, add_div] at a
  have b := lonSum_pt h
  have d := lonX_pt h
  generalize ((w : ℝ) + 3000) / 10 ^ 12 = e at *
  generalize (c : ℝ) / 10 ^ 12 = c at *
  generalize waveS sin q.lonW / 10 ^ 12 = x at *
  generalize waveS sin q.lonX / 10 ^ 12 = y at *
  generalize 3958 * sin (polyR kA1 T) + 1962 * sin (polyR kL1 T - polyR kF T) + 318 * sin (polyR kA2 T) = z at *
  rw [abs_le] at *
  norm_num at *
  constructor <;> linarith [a.1, a.2, b.1, b.2, d.1, d.2]

theorem lat_at {q : MoonPt} {T : ℝ} (h : q.OK T) {c : ℤ} {w : ℕ} (hw : nearN c w ((q.latW ++ q.latX).map sinRow) = true) :
    |latSum T + (-2235 * sin (polyR kL1 T) + 382 * sin (polyR kA3 T) + 175 * sin (polyR kA1 T - polyR kF T) +
      175 * sin (polyR kA1 T + polyR kF T) + 127 * sin (polyR kL1 T - polyR kM1 T) -
      115 * sin (polyR kL1 T + polyR kM1 T)) - c / 10 ^ 12| ≤ ((w : ℝ) + 3000) / 10 ^ 12 + 0.031 := by
  have a := sin_near hw
  rw [waveS_append, add_div] at a
  have b := latSum_pt h
  have d := latX_pt h
  generalize ((w : ℝ) + 3000) / 10 ^ 12 = e at *
  generalize (c : ℝ) / 10 ^ 12 = c at *
  generalize waveS sin q.latW / 10 ^ 12 = x at *
  generalize waveS sin q.latX / 10 ^ 12 = y at *
  generalize -2235 * sin (polyR kL1 T) + 382 * sin (polyR kA3 T) + 175 * sin (polyR kA1 T - polyR kF T) +
      175 * sin (polyR kA1 T + polyR kF T) + 127 * sin (polyR kL1 T - polyR kM1 T) -
      115 * sin (polyR kL1 T + polyR kM1 T) = z at *
  rw [abs_le] at *
  norm_num at *
  constructor <;> linarith [a.1, a.2, b.1, b.2, d.1, d.2]

theorem near_trans {x y z a b : ℝ} (h : |x - y| ≤ a) (h2 : |y - z| ≤ b) : |x - z| ≤ b + a := by
  rw [show x - z = (x - y) + (y - z) by ring, add_comm b]
  exact (abs_add_le _ _).trans (add_le_add h h2)

theorem rad_at {q : MoonPt} {T : ℝ} (h : q.OK T) {c : ℤ} {w : ℕ} (hw : nearN c w (q.radW.map cosRow) = true) :
    |radSum T - c / 10 ^ 12| ≤ ((w : ℝ) + 3000) / 10 ^ 12 + 0.03 := near_trans (radSum_pt h) (cos_near hw)

theorem psi_at {q : MoonPt} {T : ℝ} (h : q.OK T) {c : ℤ} {w : ℕ} (hw : nearN c w (q.psiW.map sinRow) = true) :
    |10 ^ 4 * nutPsi T - c / 10 ^ 12| ≤ ((w : ℝ) + 3000) / 10 ^ 12 + 0.03 := near_trans (nutPsi_pt h) (sin_near hw)

theorem eps_at {q : MoonPt} {T : ℝ} (h : q.OK T) {c : ℤ} {w : ℕ} (hw : nearN c w (q.epsW.map cosRow) = true) :
    |10 ^ 4 * nutEps T - c / 10 ^ 12| ≤ ((w : ℝ) + 3000) / 10 ^ 12 + 0.03 := near_trans (nutEps_pt h) (cos_near hw)

end Verif

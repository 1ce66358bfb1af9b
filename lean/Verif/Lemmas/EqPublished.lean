import Verif.Lemmas.PointEvent
import Verif.Props.EquinoxApprox
import Verif.Spec.Seasons

/-!
# The longitude of the Sun at the published times of the equinoxes and solstices
-/

namespace Verif
open Real Spec

set_option exponentiation.threshold 500
set_option maxRecDepth 100000

/-! ## Definitions evaluated by the kernel -/

/-- At the time `u`, the longitude differs from season `i` of the year `y` by at most `1.48e-7`. -/
noncomputable def pubOK (y i u : ℤ) : Bool :=
  islet (Int.add (Int.add (Int.mul 4 (Int.sub y 2000)) 2) i) fun r =>
  bsel (Nat.ble (Int.natAbs u) 3000000000000) (bsel (Nat.ble (Int.natAbs r) 20000)
  (lamN 50 u fun l => islet (Int.sub l (Int.mul r 53451429203248337392984018658093539165032038283745)) fun g =>
    Nat.ble (Int.natAbs g) (Nat.shiftLeft 14800 128)) false) false

/-- The time `u` is the time of the event, up to the last digit. -/
def pubNear (e : PublishedEvent) (u : ℤ) : Bool :=
  decide (|u * 315576 - 10000000 * (43200 * (2 * jdnClosed e.year (seasonMonth e.season) e.day - 4903091) +
    (3600 * e.hour + 60 * e.minute + e.second))| ≤ 160000)

/-- The right angles of a season. -/
def seasonIndex (season : String) : ℤ :=
  if season = "spring" then 0 else if season = "summer" then 1 else if season = "autumn" then 2 else 3

/-! ## Correctness -/

theorem pub_event {y i u : ℤ} (h : pubOK y i u = true) :
    ∃ x, |x - ((u : ℝ) * 1e-12 * 365250 + 2451545)| * 86400 ≤ 0.85 ∧
      sunLambda x = (4 * (y - 2000) + 2 + i : ℤ) * (π / 2) + π := by
  unfold pubOK at h
  rw [islet_eq] at h
  obtain ⟨hu, h⟩ := bsel_false h
  obtain ⟨hr, h⟩ := bsel_false h
  have hu := Nat.le_of_ble_eq_true hu
  have hr := Nat.le_of_ble_eq_true hr
  simp only [int_add, int_mul, int_sub] at hr h
  generalize 4 * (y - 2000) + 2 + i = r at *
  have hu' : |(u : ℝ)| ≤ 3e12 := by
    rw [← Int.cast_abs, Int.abs_eq_natAbs]
    have : ((u.natAbs : ℕ) : ℝ) ≤ (3000000000000 : ℕ) := by exact_mod_cast hu
    norm_num at this ⊢
    exact this
  have hr' : |(r : ℝ)| ≤ 20000 := by
    rw [← Int.cast_abs, Int.abs_eq_natAbs]
    have : ((r.natAbs : ℕ) : ℝ) ≤ (20000 : ℕ) := by exact_mod_cast hr
    norm_num at this ⊢
    exact this
  obtain ⟨l, el, bl⟩ := lamN_spec tier0 hu'
  simp only [el, islet_eq] at h
  have h := Nat.le_of_ble_eq_true h
  rw [show Nat.shiftLeft 14800 128 = 14800 * 2 ^ 128 from Nat.shiftLeft_eq 14800 128] at h
  have h' : |(l : ℝ) - r * 53451429203248337392984018658093539165032038283745| ≤ 14800 * 2 ^ 128 := by
    have : ((l - r * 53451429203248337392984018658093539165032038283745).natAbs : ℝ) ≤ (14800 * 2 ^ 128 : ℕ) := by
      exact_mod_cast h
    rw [Nat.cast_natAbs, Int.cast_abs] at this
    rw [Int.cast_sub, Int.cast_mul] at this
    refine le_trans (le_of_eq ?_) (this.trans (by norm_num))
    norm_num
  have g : |(l : ℝ) / 2 ^ 128 - r * 53451429203248337392984018658093539165032038283745 / 2 ^ 128| ≤ 14800 := by
    rw [← sub_div, abs_div, abs_of_pos (by positivity : (0 : ℝ) < 2 ^ 128), div_le_iff₀ (by positivity)]
    exact h'
  have pi4 : |(r : ℝ) * 53451429203248337392984018658093539165032038283745 / 2 ^ 128 - 10 ^ 11 * (r * (π / 2))| ≤ 0.01 := by
    rw [show (r : ℝ) * 53451429203248337392984018658093539165032038283745 / 2 ^ 128 - 10 ^ 11 * (r * (π / 2)) =
      r * (53451429203248337392984018658093539165032038283745 / 2 ^ 128 - 10 ^ 11 * (π / 2)) by ring, abs_mul]
    have q : |53451429203248337392984018658093539165032038283745 / 2 ^ 128 - 10 ^ 11 * (π / 2)| ≤ 1e-7 := by
      have p1 := pi_gt_d20
      have p2 := pi_lt_d20
      rw [abs_le]; norm_num at p1 p2 ⊢; constructor <;> linarith
    refine (mul_le_mul hr' q (abs_nonneg _) (by norm_num)).trans (by norm_num)
  obtain ⟨p, hp⟩ : ∃ p : ℝ, p = u * 1e-12 * 365250 + 2451545 := ⟨_, rfl⟩
  rw [← hp] at bl ⊢
  have mp : |millennia p| ≤ 5.9 := by
    rw [show millennia p = u * 1e-12 by rw [hp]; unfold millennia; ring, abs_mul,
      abs_of_pos (by norm_num : (0 : ℝ) < 1e-12)]
    norm_num at hu' ⊢; linarith
  have d : |(r * (π / 2) + π) - sunLambda p| ≤ 1.574e-7 := by
    generalize (r : ℝ) * 53451429203248337392984018658093539165032038283745 / 2 ^ 128 = a at *
    generalize (l : ℝ) / 2 ^ 128 = b at *
    generalize (r : ℝ) * (π / 2) = c at *
    generalize sunLambda p = s at *
    rw [abs_le] at *
    norm_num at *
    constructor <;> linarith
  have pp := Real.pi_gt_three
  obtain ⟨x, -, xv, xd⟩ := event_exists p (r * (π / 2) + π) mp (d.trans (by norm_num; linarith))
  refine ⟨x, ?_, xv⟩
  have k : kSunMotion ≤ 58.14 := by
    rw [kSunMotion_eq, div_le_iff₀ (by positivity)]
    have := Real.pi_gt_d4; norm_num at this ⊢; linarith
  have : kSunMotion * |(r * (π / 2) + π) - sunLambda p| ≤ 58.14 * 1.574e-7 :=
    mul_le_mul k d (abs_nonneg _) (by norm_num)
  have : |x - p| ≤ 58.14 * 1.574e-7 / 0.947 := xd.trans (div_le_div_of_nonneg_right this (by norm_num))
  norm_num at this ⊢
  linarith

theorem pub_time {e : PublishedEvent} {u : ℤ} (h : pubNear e u = true) :
    |((u : ℝ) * 1e-12 * 365250 + 2451545) - (e.time : ℚ)| * 86400 ≤ 0.016 := by
  have h := of_decide_eq_true h
  have hm : seasonMonth e.season = 3 ∨ seasonMonth e.season = 6 ∨ seasonMonth e.season = 9 ∨
      seasonMonth e.season = 12 := by unfold seasonMonth; split_ifs <;> simp
  unfold PublishedEvent.time jd0
  rw [jdnClosed_eq _ _ _ hm]
  generalize jdnClosed e.year (seasonMonth e.season) e.day = j at *
  generalize 3600 * e.hour + 60 * e.minute + e.second = s at *
  have h' : |(u : ℝ) * 315576 - 10000000 * (43200 * (2 * j - 4903091) + s)| ≤ 160000 := by exact_mod_cast h
  push_cast
  rw [show ((u : ℝ) * 1e-12 * 365250 + 2451545) - ((j : ℝ) - 1 / 2 + s / 86400) =
    (u * 315576 - 10000000 * (43200 * (2 * j - 4903091) + s)) / 864000000000 by ring, abs_div,
    abs_of_pos (by norm_num : (0 : ℝ) < 864000000000)]
  have := div_le_div_of_nonneg_right h' (by norm_num : (0 : ℝ) ≤ 864000000000)
  generalize |(u : ℝ) * 315576 - 10000000 * (43200 * (2 * j - 4903091) + s)| / 864000000000 = z at *
  norm_num at this ⊢
  linarith

/-! ## The table -/

theorem pub0 : pubOK 1962 1 (-37529384934) = true := by decide +kernel

theorem pub1 : pubOK 1996 0 (-3784158269) = true := by decide +kernel

theorem pub2 : pubOK 1996 1 (-3530183347) = true := by decide +kernel

theorem pub3 : pubOK 1996 2 (-3273782924) = true := by decide +kernel

theorem pub4 : pubOK 1996 3 (-3027821634) = true := by decide +kernel

theorem pub5 : pubOK 1997 0 (-2784174272) = true := by decide +kernel

theorem pub6 : pubOK 1997 1 (-2530190540) = true := by decide +kernel

theorem pub7 : pubOK 1997 2 (-2273791131) = true := by decide +kernel

theorem pub8 : pubOK 1997 3 (-2027819448) = true := by decide +kernel

theorem pub9 : pubOK 1998 0 (-1784174494) = true := by decide +kernel

theorem pub10 : pubOK 1998 1 (-1530223528) = true := by decide +kernel

theorem pub11 : pubOK 1998 2 (-1273826432) = true := by decide +kernel

theorem pub12 : pubOK 1998 3 (-1027839538) = true := by decide +kernel

theorem pub13 : pubOK 1999 0 (-784191035) = true := by decide +kernel

theorem pub14 : pubOK 1999 1 (-530249100) = true := by decide +kernel

theorem pub15 : pubOK 1999 2 (-273837237) = true := by decide +kernel

theorem pub16 : pubOK 1999 3 (-27863589) = true := by decide +kernel

theorem pub17 : pubOK 2000 0 (215788875) = true := by decide +kernel

theorem pub18 : pubOK 2000 1 (469748206) = true := by decide +kernel

theorem pub19 : pubOK 2000 2 (726155348) = true := by decide +kernel

theorem pub20 : pubOK 2000 3 (972124306) = true := by decide +kernel

theorem pub21 : pubOK 2001 0 (1215780256) = true := by decide +kernel

theorem pub22 : pubOK 2001 1 (1469729257) = true := by decide +kernel

theorem pub23 : pubOK 2001 2 (1726111365) = true := by decide +kernel

theorem pub24 : pubOK 2001 3 (1972094012) = true := by decide +kernel

theorem pub25 : pubOK 2002 0 (2215752560) = true := by decide +kernel

theorem pub26 : pubOK 2002 1 (2469703938) = true := by decide +kernel

theorem pub27 : pubOK 2002 2 (2726094126) = true := by decide +kernel

theorem pub28 : pubOK 2002 3 (2972080450) = true := by decide +kernel

theorem pub29 : pubOK 2003 0 (3215721411) = true := by decide +kernel

theorem pub30 : pubOK 2003 1 (3469677415) = true := by decide +kernel

theorem pub31 : pubOK 2003 2 (3726077807) = true := by decide +kernel

theorem pub32 : pubOK 2003 3 (3972060391) = true := by decide +kernel

theorem pub33 : pubOK 2004 0 (4215700243) = true := by decide +kernel

theorem pub34 : pubOK 2004 1 (4469651589) = true := by decide +kernel

theorem pub35 : pubOK 2004 2 (4726045517) = true := by decide +kernel

theorem pub36 : pubOK 2004 3 (4972018151) = true := by decide +kernel

theorem pub37 : pubOK 2005 0 (5215671312) = true := by decide +kernel

theorem pub38 : pubOK 2005 1 (5469631151) = true := by decide +kernel

theorem pub39 : pubOK 2005 2 (5726032842) = true := by decide +kernel

theorem pub40 : pubOK 2005 3 (5972005507) = true := by decide +kernel

/-- The check for a row. -/
def PubRow (e : PublishedEvent) : Prop :=
  ∃ u, pubOK e.year (seasonIndex e.season) u = true ∧ pubNear e u = true

theorem PubRow.mk {y d h m s i u : ℤ} {season : String} (hi : seasonIndex season = i) (h1 : pubOK y i u = true)
    (h2 : pubNear ⟨y, season, d, h, m, s⟩ u = true) : PubRow ⟨y, season, d, h, m, s⟩ :=
  ⟨u, by rw [hi]; exact h1, h2⟩

theorem pub_all : ∀ e ∈ publishedEvents, PubRow e := by
  unfold publishedEvents
  simp only [List.forall_mem_cons, List.not_mem_nil, false_imp_iff, implies_true, and_true]
  exact ⟨.mk (i := 1) (by decide) pub0 (by decide +kernel),
    .mk (i := 0) (by decide) pub1 (by decide +kernel),
    .mk (i := 1) (by decide) pub2 (by decide +kernel),
    .mk (i := 2) (by decide) pub3 (by decide +kernel),
    .mk (i := 3) (by decide) pub4 (by decide +kernel),
    .mk (i := 0) (by decide) pub5 (by decide +kernel),
    .mk (i := 1) (by decide) pub6 (by decide +kernel),
    .mk (i := 2) (by decide) pub7 (by decide +kernel),
    .mk (i := 3) (by decide) pub8 (by decide +kernel),
    .mk (i := 0) (by decide) pub9 (by decide +kernel),
    .mk (i := 1) (by decide) pub10 (by decide +kernel),
    .mk (i := 2) (by decide) pub11 (by decide +kernel),
    .mk (i := 3) (by decide) pub12 (by decide +kernel),
    .mk (i := 0) (by decide) pub13 (by decide +kernel),
    .mk (i := 1) (by decide) pub14 (by decide +kernel),
    .mk (i := 2) (by decide) pub15 (by decide +kernel),
    .mk (i := 3) (by decide) pub16 (by decide +kernel),
    .mk (i := 0) (by decide) pub17 (by decide +kernel),
    .mk (i := 1) (by decide) pub18 (by decide +kernel),
    .mk (i := 2) (by decide) pub19 (by decide +kernel),
    .mk (i := 3) (by decide) pub20 (by decide +kernel),
    .mk (i := 0) (by decide) pub21 (by decide +kernel),
    .mk (i := 1) (by decide) pub22 (by decide +kernel),
    .mk (i := 2) (by decide) pub23 (by decide +kernel),
    .mk (i := 3) (by decide) pub24 (by decide +kernel),
    .mk (i := 0) (by decide) pub25 (by decide +kernel),
    .mk (i := 1) (by decide) pub26 (by decide +kernel),
    .mk (i := 2) (by decide) pub27 (by decide +kernel),
    .mk (i := 3) (by decide) pub28 (by decide +kernel),
    .mk (i := 0) (by decide) pub29 (by decide +kernel),
    .mk (i := 1) (by decide) pub30 (by decide +kernel),
    .mk (i := 2) (by decide) pub31 (by decide +kernel),
    .mk (i := 3) (by decide) pub32 (by decide +kernel),
    .mk (i := 0) (by decide) pub33 (by decide +kernel),
    .mk (i := 1) (by decide) pub34 (by decide +kernel),
    .mk (i := 2) (by decide) pub35 (by decide +kernel),
    .mk (i := 3) (by decide) pub36 (by decide +kernel),
    .mk (i := 0) (by decide) pub37 (by decide +kernel),
    .mk (i := 1) (by decide) pub38 (by decide +kernel),
    .mk (i := 2) (by decide) pub39 (by decide +kernel),
    .mk (i := 3) (by decide) pub40 (by decide +kernel)⟩

end Verif

import Verif.Lemmas.SeriesNat
import Verif.Spec.Vsop87Chk
import Verif.Props.Planets

/-!
# From the evaluation of the series to the check values
-/

namespace Verif
open Real

/-- The program returns the coordinates of an entry, each of them to `1e-10`. -/
def Meets (e : ChkEntry) : Prop := ∃ l b r : ℝ,
  vsopDimension3 vsopDict [(e.jd : ℝ)] e.planet = .ok (.scalar l, .scalar b, .scalar r) ∧
  |l - e.l * 1e-10| ≤ 1e-10 ∧ |b - e.b * 1e-10| ≤ 1e-10 ∧ |r - e.r * 1e-10| ≤ 1e-10

/-- Centuries before J2000; longitude not reduced, latitude and distance in units of `1e-20` and
shifted by `10 ^ 25`; `m` is the number of turns by which the longitude is reduced. -/
structure ChkTarget where
  k : ℕ
  tL : ℕ
  m : ℕ
  tB : ℕ
  tR : ℕ

/-- Date and longitude. -/
def ChkTarget.L (t : ChkTarget) : ℕ × ℕ := (t.k, t.tL)
/-- Date and latitude. -/
def ChkTarget.B (t : ChkTarget) : ℕ × ℕ := (t.k, t.tB)
/-- Date and distance. -/
def ChkTarget.R (t : ChkTarget) : ℕ × ℕ := (t.k, t.tR)

/-- A target belongs to an entry. -/
def belongs (p : String) (e : ChkEntry) (t : ChkTarget) : Bool :=
  decide (e.planet = p) && decide (t.k ≤ 9) && decide (e.jd = 2451545 - 36525 * t.k) &&
  decide (t.m ≤ 10000) && decide ((t.tL : ℤ) = 10 ^ 25 + e.l * 10 ^ 10 - t.m * 628318530717958647692) &&
  decide ((t.tB : ℤ) = 10 ^ 25 + e.b * 10 ^ 10) && decide ((t.tR : ℤ) = 10 ^ 25 + e.r * 10 ^ 10) &&
  decide (10 ≤ e.l) && decide (e.l ≤ 62831853000)

/-- Every entry has a target. -/
def matchOk (p : String) (es : List ChkEntry) (ts : List ChkTarget) : Bool :=
  es.all fun e => ts.any fun t => belongs p e t

theorem meets_of {p : String} {cL cB cR : List (List Term)}
    (hL : vsopDict.lookup (p, "L") = some cL) (hB : vsopDict.lookup (p, "B") = some cB)
    (hR : vsopDict.lookup (p, "R") = some cR) {es : List ChkEntry} {ts : List ChkTarget}
    (hm : matchOk p es ts = true) (sL : smallN cL = true) (sB : smallN cB = true)
    (sR : smallN cR = true) (aL : allN cL (ts.map ChkTarget.L) = true)
    (aB : allN cB (ts.map ChkTarget.B) = true) (aR : allN cR (ts.map ChkTarget.R) = true) :
    ∀ e ∈ es, Meets e := by
  intro e he
  unfold matchOk at hm
  obtain ⟨t, ht, hb⟩ := List.any_eq_true.1 (List.all_eq_true.1 hm e he)
  simp only [belongs, Bool.and_eq_true, decide_eq_true_eq] at hb
  obtain ⟨⟨⟨⟨⟨⟨⟨⟨rfl, h1⟩, h2⟩, h3⟩, h4⟩, h5⟩, h6⟩, h7⟩, h8⟩ := hb
  have vL := allN_spec sL aL _ (List.mem_map_of_mem ht) h1
  have vB := allN_spec sB aB _ (List.mem_map_of_mem ht) h1
  have vR := allN_spec sR aR _ (List.mem_map_of_mem ht) h1
  simp only [ChkTarget.L, ChkTarget.B, ChkTarget.R] at vL vB vR
  have em : millennia (e.jd : ℝ) = -(t.k : ℝ) / 10 := by
    rw [millennia, h2]; push_cast; ring
  have e4 : (t.tL : ℝ) = 10 ^ 25 + e.l * 10 ^ 10 - t.m * 628318530717958647692 := by exact_mod_cast h4
  have e5 : (t.tB : ℝ) = 10 ^ 25 + e.b * 10 ^ 10 := by exact_mod_cast h5
  have e6 : (t.tR : ℝ) = 10 ^ 25 + e.r * 10 ^ 10 := by exact_mod_cast h6
  have e7 : (10 : ℝ) ≤ e.l := by exact_mod_cast h7
  have e8 : (e.l : ℝ) ≤ 62831853000 := by exact_mod_cast h8
  have e3 : (t.m : ℝ) ≤ 10000 := by exact_mod_cast h3
  rw [← em] at vL vB vR
  rw [e4] at vL
  rw [e5] at vB
  rw [e6] at vR
  refine ⟨_, _, _, vsop_dimension3_value _ _ _ _ _ hL hB hR, ?_, ?_, ?_⟩
  · generalize poisson cL _ = x at *
    have p1 := pi_gt_d20
    have p2 := pi_lt_d20
    have m0 : (0 : ℝ) ≤ t.m := Nat.cast_nonneg _
    have q1 := mul_le_mul_of_nonneg_left p1.le m0
    have q2 := mul_le_mul_of_nonneg_left p2.le m0
    have hx : |x + t.m * (2 * π) - e.l * 1e-10| ≤ 1e-10 := by
      rw [abs_le] at *
      have r : (t.m : ℝ) * (2 * π) = 2 * (t.m * π) := by ring
      rw [r]
      generalize (t.m : ℝ) * π = z at *
      generalize (e.l : ℝ) = l at *
      generalize (t.m : ℝ) = m at *
      clear e4 e5 e6
      norm_num at vL q1 q2 ⊢
      constructor <;> linarith [vL.1, vL.2]
    have : modpi2 x = x + t.m * (2 * π) := by
      have c : modpi2 x = modpi2 (x + t.m * (2 * π)) :=
        modpi2_congr ⟨-(t.m : ℤ), by push_cast; ring⟩
      rw [c]
      generalize x + t.m * (2 * π) = y at *
      generalize (e.l : ℝ) = l at *
      clear e4 e5 e6 q1 q2 vL vB vR
      rw [abs_le] at hx
      norm_num at hx p1
      exact modpi2_of_mem (by linarith [hx.1]) (by linarith [hx.2])
    rwa [this]
  · generalize poisson cB _ = x at *
    clear e4 e5 e6
    rw [abs_le] at *
    norm_num at vB ⊢
    constructor <;> linarith [vB.1, vB.2]
  · generalize poisson cR _ = x at *
    clear e4 e5 e6
    rw [abs_le] at *
    norm_num at vR ⊢
    constructor <;> linarith [vR.1, vR.2]

end Verif

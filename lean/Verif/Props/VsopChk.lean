import Verif.Lemmas.Chk.Mercury
import Verif.Lemmas.Chk.Venus
import Verif.Lemmas.Chk.Earth
import Verif.Lemmas.Chk.Mars
import Verif.Lemmas.Chk.Jupiter
import Verif.Lemmas.Chk.Saturn
import Verif.Lemmas.Chk.Uranus
import Verif.Lemmas.Chk.Neptune
import Verif.Props.FloatVsop

/-!
# C88: the planets are where the authors of the theory say

The other theorems about the planets compare two computations from the same tables.  Here the
result is compared with numbers published apart from the tables, so that an error in a single
coefficient of any importance would show.  The kernel evaluates all 31577 rows of the tables at all
ten dates.
-/

namespace Verif
open Real

/-- C88: `dimension3` meets all 240 check values, to `1e-10`. -/
theorem vsop_check_values : ∀ e ∈ vsop87Chk, ∃ l b r : ℝ,
    vsopDimension3 vsopDict [(e.jd : ℝ)] e.planet = .ok (.scalar l, .scalar b, .scalar r) ∧
    |l - e.l * 1e-10| ≤ 1e-10 ∧ |b - e.b * 1e-10| ≤ 1e-10 ∧ |r - e.r * 1e-10| ≤ 1e-10 := by
  intro e he
  change Meets e
  simp only [vsop87Chk, List.mem_append] at he
  rcases he with ((((((h | h) | h) | h) | h) | h) | h) | h
  · exact chk_mercury e h
  · exact chk_venus e h
  · exact chk_earth e h
  · exact chk_mars e h
  · exact chk_jupiter e h
  · exact chk_saturn e h
  · exact chk_uranus e h
  · exact chk_neptune e h

theorem vsop87Chk_dates : ∀ e ∈ vsop87Chk, 2122820 ≤ e.jd ∧ e.jd ≤ 2451545 ∧ 1000000 ≤ e.l ∧
    e.l ≤ 62830000000 := by decide +kernel

theorem tols2_small : ∀ t ∈ tols2, t.tolL ≤ 2e-9 := by decide +kernel

/-- C88: the same in binary64, where the rounding errors of C75 are added. -/
theorem vsop_check_values_float {fl : ℚ → ℚ} (hf : FloatLike fl) {cosF : ℚ → ℚ} (hc : CosLike cosF)
    {sumF : List ℚ → ℚ} (hs : SumLike fl 1400 64 sumF) (e : ChkEntry) (he : e ∈ vsop87Chk) (t : Tol)
    (ht : t ∈ tols2) (hp : t.name = e.planet) : ∃ l b r : ℚ,
    vsopDimensionF fl cosF sumF e.jd e.planet "L" = .ok l ∧
    vsopDimensionF fl cosF sumF e.jd e.planet "B" = .ok b ∧
    vsopDimensionF fl cosF sumF e.jd e.planet "R" = .ok r ∧
    |(l : ℝ) - e.l * 1e-10| ≤ 1e-10 + t.tolL ∧ |(b : ℝ) - e.b * 1e-10| ≤ 1e-10 + t.tolB ∧
    |(r : ℝ) - e.r * 1e-10| ≤ 1e-10 + t.tolR := by
  obtain ⟨l, b, r, h, hl, hb, hr⟩ := vsop_check_values e he
  obtain ⟨d1, d2, d3, d4⟩ := vsop87Chk_dates e he
  have hj : |millennia ((e.jd : ℚ) : ℝ)| ≤ 2 := by
    have d1' : (2122820 : ℝ) ≤ e.jd := by exact_mod_cast d1
    have d2' : (e.jd : ℝ) ≤ 2451545 := by exact_mod_cast d2
    rw [millennia, abs_le, Rat.cast_intCast]
    constructor <;> linarith
  obtain ⟨aL, aB, aR⟩ := vsop_float_2 hf hc hs e.jd hj t ht
  rw [hp] at aL aB aR
  obtain ⟨xl, yl, kl, fL, gL, eL, -, rL⟩ := aL
  obtain ⟨xb, yb, kb, fB, gB, eB, zB, -⟩ := aB
  obtain ⟨xr, yr, kr, fR, gR, eR, zR, -⟩ := aR
  rw [Rat.cast_intCast] at gL gB gR
  rw [vsopDimension3, gL, gB, gR] at h
  obtain ⟨rfl, rfl, rfl⟩ : yl = l ∧ yb = b ∧ yr = r := by
    simpa [bind, Except.bind, Out.scalar.injEq] using h
  rw [zB (by decide), Int.cast_zero, zero_mul, sub_zero] at eB
  rw [zR (by decide), Int.cast_zero, zero_mul, sub_zero] at eR
  obtain ⟨r0, r1⟩ := rL rfl
  have r0' : (0 : ℝ) ≤ xl := by exact_mod_cast r0
  have r1' : (xl : ℝ) ≤ pi2F := by exact_mod_cast r1
  have d3' : (1000000 : ℝ) ≤ e.l := by exact_mod_cast d3
  have d4' : (e.l : ℝ) ≤ 62830000000 := by exact_mod_cast d4
  have ts : (t.tolL : ℝ) ≤ 2e-9 := by
    have := tols2_small t ht
    have h2 : ((t.tolL : ℚ) : ℝ) ≤ ((2e-9 : ℚ) : ℝ) := by exact_mod_cast this
    norm_num at h2 ⊢; linarith
  have pn := pi2F_near
  have p1 := pi_gt_d6
  have p2 := pi_lt_d6
  have k0 : kl = 0 := by
    generalize (e.l : ℝ) = el at *
    rw [abs_le] at *
    generalize (xl : ℝ) = x at *
    generalize (pi2F : ℝ) = p at *
    clear eB eR hb hr
    norm_num at eL hl ts pn p1 p2
    by_contra hk
    rcases lt_or_gt_of_ne hk with hk | hk
    · have : (kl : ℝ) ≤ -1 := by exact_mod_cast Int.le_sub_one_of_lt hk
      have := mul_le_mul_of_nonneg_right this (by positivity : 0 ≤ 2 * π)
      linarith
    · have : (1 : ℝ) ≤ kl := by exact_mod_cast hk
      have := mul_le_mul_of_nonneg_right this (by positivity : 0 ≤ 2 * π)
      linarith
  rw [k0, Int.cast_zero, zero_mul, sub_zero] at eL
  refine ⟨xl, xb, xr, fL, fB, fR, ?_, ?_, ?_⟩
  · rw [abs_le] at *; constructor <;> linarith [hl.1, hl.2, eL.1, eL.2]
  · rw [abs_le] at *; constructor <;> linarith [hb.1, hb.2, eB.1, eB.2]
  · rw [abs_le] at *; constructor <;> linarith [hr.1, hr.2, eR.1, eR.2]

/-- C88: the tolerances cover the planets of the file: 80 entries, ten for each planet. -/
theorem vsop_check_covers : vsop87Chk.length = 80 ∧
    (∀ t ∈ tols2, (vsop87Chk.filter fun e => e.planet == t.name).length = 10) ∧
    ∀ e ∈ vsop87Chk, ∃ t ∈ tols2, t.name = e.planet := by decide +kernel

/-- The first entry: Mercury on 2000 January 1. -/
example : (⟨"Mercury", 2451545, 44293481036, -527573409, 4664714751⟩ : ChkEntry) ∈ vsop87Chk := by
  simp [vsop87Chk, chkMercury]

end Verif

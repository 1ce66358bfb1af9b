import Verif.Model.CheckPerihelion
import Verif.Lemmas.Perihelion
import Verif.Props.FloatVsop
import Verif.Props.CalToJd
import Verif.Lemmas.FloatNut
import Verif.Lemmas.FloatSun

/-!
# C94: `apps/check_perihelion.py`
-/

namespace Verif
open Real

variable {fl : ℚ → ℚ}

/-- The Julian Day of the aphelion as the program computes it. -/
theorem peri_jd (hf : FloatLike fl) : ∃ j : ℚ,
    calToJd fl [.int 1991] [.int 7] [fl (6 + fl (fl 15.46 / 24))] true = .ok (.scalar j) ∧
      Near j (periTime 0) 1.5e-9 ∧ ∃ x, j = fl x := by
  have d1 : Near (fl 15.46) 15.46 2e-15 := by
    have : Near (15.46 : ℚ) (15.46 : ℝ) 0 := by unfold Near; norm_num
    exact this.rnd hf (M := 16) (by norm_num [abs_of_pos]) (by rw [uuR, wwR]; norm_num)
  have d2 : Near (fl (fl 15.46 / 24)) (15.46 / 24) 2e-16 := by
    have := d1.div_const (k := 24) (by norm_num)
    rw [show ((24 : ℚ) : ℝ) = 24 by norm_num] at this
    exact this.rnd hf (M := 1) (by rw [abs_le]; norm_num) (by rw [uuR, wwR]; norm_num)
  have d3 : Near (fl (6 + fl (fl 15.46 / 24))) (6 + 15.46 / 24) 1.2e-15 := by
    have h6 : Near (6 : ℚ) (6 : ℝ) 0 := by unfold Near; norm_num
    exact (h6.add d2).rnd hf (M := 7) (by rw [abs_le]; norm_num) (by rw [uuR, wwR]; norm_num)
  generalize fl (6 + fl (fl 15.46 / 24)) = d at *
  have hd : (6 : ℝ) ≤ d ∧ (d : ℝ) ≤ 7 := by
    unfold Near at d3
    rw [abs_le] at d3
    norm_num at d3
    constructor <;> linarith [d3.1, d3.2]
  have hd1 : (6 : ℚ) ≤ d := by exact_mod_cast hd.1
  have hd2 : d ≤ (7 : ℚ) := by exact_mod_cast hd.2
  have acc : ∃ r, calToJd fl [.int 1991] [.int 7] [d] true = .ok r :=
    (cal_to_jd_accepts_iff hf true 1991 7 d).2 ⟨by norm_num, by norm_num, by norm_num, by linarith, by
      have : Spec.monthLen true 1991 7 = 31 := by decide
      rw [this]; push_cast; linarith⟩
  obtain ⟨r, hr⟩ := acc
  have hr' := (calToJd_single_iff fl true (.int 1991) (.int 7) d r).1 hr
  refine ⟨_, hr'.2 ▸ hr, ?_⟩
  have e := calToJdCore_eq hf true 1991 7 d (by norm_num) (by norm_num) (by norm_num)
  have c1 : yearTerm 1991 7 + monTerm 7 = 2449975 := by decide
  have c2 : corrB true 1991 7 = -13 := by decide
  rw [c1, c2] at e
  simp only [Num.val]
  push_cast at e ⊢
  rw [e]
  refine ⟨?_, _, rfl⟩
  have n1 : Near (2449975 : ℚ) (2449975 : ℝ) 0 := by unfold Near; norm_num
  have n2 : Near (-13 : ℚ) (-13 : ℝ) 0 := by unfold Near; norm_num
  have n3 : Near (3049 / 2 : ℚ) (3049 / 2 : ℝ) 0 := by unfold Near; norm_num
  have a1 : Near (fl (2449975 + d)) (2449975 + (6 + 15.46 / 24)) 3e-10 :=
    (n1.add d3).rnd hf (M := 2449982) (by rw [abs_le]; norm_num) (by rw [uuR, wwR]; norm_num)
  have a2 : Near (fl (fl (2449975 + d) + -13)) (2449975 + (6 + 15.46 / 24) + -13) 6e-10 :=
    (a1.add n2).rnd hf (M := 2449982) (by rw [abs_le]; norm_num) (by rw [uuR, wwR]; norm_num)
  have a3 : Near (fl (fl (fl (2449975 + d) + -13) - 3049 / 2)) (2449975 + (6 + 15.46 / 24) + -13 - 3049 / 2) 9e-10 :=
    (a2.sub n3).rnd hf (M := 2449982) (by rw [abs_le]; norm_num) (by rw [uuR, wwR]; norm_num)
  refine (show (2449975 + (6 + 15.46 / 24) + -13 - 3049 / 2 : ℝ) = periTime 0 by unfold periTime; norm_num) ▸
    a3.mono (by norm_num)

/-- The distance which the program computes. -/
theorem peri_R (hf : FloatLike fl) {cosF : ℚ → ℚ} (hc : CosLike cosF) {sumF : List ℚ → ℚ}
    (hs : SumLike fl 1400 64 sumF) {n : ℕ} {r : ℤ × ℤ × ℤ} (hr : r ∈ periTable) (ok : periRowOk n r = true) {j : ℚ}
    (hj : Near j (periTime r.1) 2e-9) (hi : |(r.1 : ℝ)| ≤ 24) :
    ∃ R, vsopDimensionF fl cosF sumF j "Earth" "R" = .ok R ∧ |10 ^ 11 * (R : ℝ) - r.2.2| ≤ 10.6 := by
  have pt : |(j : ℝ) - 2448444.5| ≤ 3 := by
    unfold Near periTime at hj
    rw [abs_le] at *
    norm_num at hj hi ⊢
    constructor <;> linarith [hj.1, hj.2, hi.1, hi.2]
  have hm : |millennia j| ≤ 2 := by
    unfold millennia
    rw [abs_le] at pt ⊢
    norm_num at pt
    constructor
    · rw [le_div_iff₀ (by norm_num)]; linarith [pt.1]
    · rw [div_le_iff₀ (by norm_num)]; linarith [pt.2]
  have ag := (vsop_float_2 hf hc hs j hm ⟨"Earth", 2.51e-10, 1e-13, 3e-13⟩ (by simp [tols2])).2.2
  obtain ⟨R, y, k, e1, e2, e3, e4, -⟩ := ag
  refine ⟨R, e1, ?_⟩
  have hk := e4 (by decide)
  rw [hk, Int.cast_zero, zero_mul, sub_zero] at e3
  simp only at e2 e3
  rw [vsop_dimension_value _ _ _ _ lookup_earth.2.2, if_neg (by decide)] at e2
  have e2 : poisson Data.earthR (millennia (j : ℝ)) = y := by injection e2 with e2; injection e2
  have h := peri_near hr ok hj
  rw [e2] at h
  clear e2
  generalize (r.2.2 : ℝ) = c at *
  generalize (R : ℝ) = x at *
  norm_num at e3 h ⊢
  rw [abs_le] at e3 h ⊢
  constructor <;> linarith [e3.1, e3.2, h.1, h.2]

/-- A list of computations which all return. -/
theorem mapM_ok {α β : Type} (f : α → Except PyErr β) (P : α → β → Prop) (l : List α)
    (h : ∀ a ∈ l, ∃ b, f a = .ok b ∧ P a b) : ∃ m, l.mapM f = .ok m ∧ List.Forall₂ P l m := by
  induction l with
  | nil => exact ⟨[], rfl, .nil⟩
  | cons a l ih =>
    obtain ⟨b, hb, pb⟩ := h a List.mem_cons_self
    obtain ⟨m, hm, pm⟩ := ih fun x hx => h x (List.mem_cons_of_mem _ hx)
    refine ⟨b :: m, ?_, .cons pb pm⟩
    rw [List.mapM_cons, hb, hm]
    rfl

/-- C94: when the parameters can be read `check_perihelion` prints the 48 hours from -24 to 23 in order, 0 for the
hour 0, and for every other hour `i` a decrease of the distance between `0.64 i²` and `0.73 i²` km: the instant in the
script is the aphelion.  For every rounding, cosine and summation. -/
theorem check_perihelion_lines (hr : Rounding fl) {cosF : ℚ → ℚ} (hc : CosLike cosF) {sumF : List ℚ → ℚ}
    (hs : SumLike fl 1400 64 sumF) : ∃ lines : List (ℤ × ℚ), checkPerihelion fl cosF sumF (.ok ()) = .ok lines ∧
      lines.map Prod.fst = (List.range 48).map (fun n : ℕ => (n : ℤ) - 24) ∧
      ∀ p ∈ lines, 0.64 * (p.1 : ℚ) ^ 2 ≤ p.2 ∧ p.2 ≤ 0.73 * (p.1 : ℚ) ^ 2 := by
  have hf := hr.floatLike
  obtain ⟨j, hj, nj, x, hx⟩ := peri_jd hf
  -- the hour 0
  obtain ⟨r0, m0, k0, z0⟩ := peri_rows 24 (by norm_num)
  have f0 : r0.1 = 0 := by
    have := k0
    simp only [periRowOk, Bool.and_eq_true, decide_eq_true_eq] at this
    exact this.1.1.1
  obtain ⟨R0, hR0, n0⟩ := peri_R hf hc hs m0 k0 (by rw [f0]; exact nj.mono (by norm_num)) (by rw [f0]; norm_num)
  rw [z0 f0] at n0
  have dph : Near (fl (1 / 24)) (1 / 24) 1e-17 := by
    have : Near (1 / 24 : ℚ) (1 / 24 : ℝ) 0 := by unfold Near; norm_num
    exact this.rnd hf (M := 1 / 24) (by rw [abs_le]; norm_num) (by rw [uuR, wwR]; norm_num)
  have km : Near (fl 149597870.691) 149597870.691 2e-8 := by
    have : Near (149597870.691 : ℚ) (149597870.691 : ℝ) 0 := by unfold Near; norm_num
    exact this.rnd hf (M := 149597871) (by rw [abs_le]; norm_num) (by rw [uuR, wwR]; norm_num)
  obtain ⟨lines, hl, hp⟩ := mapM_ok (perihelionLine fl cosF sumF j R0)
    (fun (i : ℤ) p => p.1 = i ∧ 0.64 * (i : ℚ) ^ 2 ≤ p.2 ∧ p.2 ≤ 0.73 * (i : ℚ) ^ 2)
    ((List.range 48).map fun n : ℕ => (n : ℤ) - 24) (by
      intro i hi
      obtain ⟨n, hn, rfl⟩ := List.mem_map.1 hi
      obtain ⟨r, mr, kr, -⟩ := peri_rows n (List.mem_range.1 hn)
      have kr' := kr
      simp only [periRowOk, Bool.and_eq_true, Bool.or_eq_true, decide_eq_true_eq] at kr'
      obtain ⟨⟨⟨e, -⟩, -⟩, b⟩ := kr'
      rw [← e]
      have hi : |(r.1 : ℝ)| ≤ 24 := by
        have : |r.1| ≤ 24 := by
          have := List.mem_range.1 hn
          rw [abs_le]; omega
        exact_mod_cast this
      unfold perihelionLine
      by_cases h0 : r.1 = 0
      · rw [h0]
        have ej : fl (j + fl (((0 : ℤ) : ℚ) * fl (1 / 24))) = j := by
          rw [Int.cast_zero, zero_mul, hf.fl_zero, add_zero, hx, hf.fix _ (hr.rep x)]
        simp only [ej, hR0]
        refine ⟨_, rfl, rfl, ?_⟩
        rw [sub_self, hf.fl_zero, zero_mul, hf.fl_zero]
        norm_num
      · have b := b.resolve_left h0
        have t1 : Near (fl (r.1 * fl (1 / 24))) (r.1 * (1 / 24)) 1e-15 := by
          have hr1 : Near (r.1 : ℚ) (r.1 : ℝ) 0 := by unfold Near; simp
          exact (hr1.mul dph hi (N := 1 / 24) (by rw [abs_le]; norm_num)).rnd hf (M := 1)
            (by rw [abs_mul, abs_of_pos (by norm_num : (0 : ℝ) < 1 / 24)]; linarith) (by rw [uuR, wwR]; norm_num)
        have t2 : Near (fl (j + fl (r.1 * fl (1 / 24)))) (periTime 0 + r.1 * (1 / 24)) 1.9e-9 :=
          (nj.add t1).rnd hf (M := 2448446) (by
            unfold periTime
            rw [abs_le] at hi ⊢
            norm_num
            constructor <;> linarith [hi.1, hi.2]) (by rw [uuR, wwR]; norm_num)
        rw [show periTime 0 + r.1 * (1 / 24) = periTime r.1 by unfold periTime; push_cast; ring] at t2
        obtain ⟨R, hR, nR⟩ := peri_R hf hc hs mr kr (t2.mono (by norm_num)) hi
        simp only [hR]
        refine ⟨_, rfl, rfl, ?_⟩
        have b1 : (64 * 10 ^ 6 : ℝ) * r.1 ^ 2 ≤ 149597 * (101670275162 - r.2.2 - 22) := by exact_mod_cast b.1
        have b2 : (149598 : ℝ) * (101670275162 - r.2.2 + 22) ≤ 73 * 10 ^ 6 * r.1 ^ 2 := by exact_mod_cast b.2
        have i2 : (r.1 : ℝ) ^ 2 ≤ 576 := by
          have := sq_le_sq' (abs_le.1 hi).1 (abs_le.1 hi).2
          linarith
        have q0 := sq_nonneg (r.1 : ℝ)
        generalize hX : (R0 : ℝ) - R = X at *
        have D : Near (R0 - R) X 0 := by rw [← hX]; unfold Near; simp
        have X1 : (101670275162 - r.2.2 - 21.2 : ℝ) ≤ 10 ^ 11 * X := by
          rw [← hX]
          rw [abs_le] at n0 nR
          norm_num at n0 nR ⊢
          linarith [n0.1, nR.2]
        have X2 : 10 ^ 11 * X ≤ (101670275162 - r.2.2 + 21.2 : ℝ) := by
          rw [← hX]
          rw [abs_le] at n0 nR
          norm_num at n0 nR ⊢
          linarith [n0.2, nR.1]
        generalize (r.2.2 : ℝ) = c at *
        have X0 : |X| ≤ 1e-5 := by
          rw [abs_le]
          norm_num at X1 X2 b1 b2 ⊢
          constructor <;> linarith
        have D1 : Near (fl (R0 - R)) X 2e-21 := D.rnd hf X0 (by rw [uuR, wwR]; norm_num)
        have D2 : Near (fl (fl (R0 - R) * fl 149597870.691)) (X * 149597870.691) 1e-11 :=
          (D1.mul km X0 (N := 149597871) (by rw [abs_le]; norm_num)).rnd hf (M := 1500) (by
            rw [abs_mul, abs_of_pos (by norm_num : (0 : ℝ) < 149597870.691)]
            norm_num at X0 ⊢
            linarith) (by rw [uuR, wwR]; norm_num)
        generalize fl (fl (R0 - R) * fl 149597870.691) = v at *
        unfold Near at D2
        rw [abs_le] at D2
        have G1 : (0.64 : ℝ) * (r.1 : ℝ) ^ 2 ≤ v := by
          norm_num at D2 X1 b1 ⊢
          linarith [D2.1]
        have G2 : (v : ℝ) ≤ 0.73 * (r.1 : ℝ) ^ 2 := by
          norm_num at D2 X1 X2 b1 b2 ⊢
          linarith [D2.2]
        constructor
        · have : ((0.64 * (r.1 : ℚ) ^ 2 : ℚ) : ℝ) ≤ v := by push_cast; exact G1
          exact_mod_cast this
        · have : (v : ℝ) ≤ ((0.73 * (r.1 : ℚ) ^ 2 : ℚ) : ℝ) := by push_cast; exact G2
          exact_mod_cast this)
  refine ⟨lines, ?_, ?_, ?_⟩
  · unfold checkPerihelion
    simp only [hj, hR0, hl]
  · have : ∀ {l : List ℤ} {m : List (ℤ × ℚ)}, List.Forall₂ (fun (i : ℤ) p => p.1 = i ∧ 0.64 * (i : ℚ) ^ 2 ≤ p.2 ∧
        p.2 ≤ 0.73 * (i : ℚ) ^ 2) l m → m.map Prod.fst = l := by
      intro l m h
      induction h with
      | nil => rfl
      | cons a _ ih => rw [List.map_cons, ih, a.1]
    exact this hp
  · intro p hp'
    have : ∀ {l : List ℤ} {m : List (ℤ × ℚ)}, List.Forall₂ (fun (i : ℤ) p => p.1 = i ∧ 0.64 * (i : ℚ) ^ 2 ≤ p.2 ∧
        p.2 ≤ 0.73 * (i : ℚ) ^ 2) l m → ∀ p ∈ m, 0.64 * (p.1 : ℚ) ^ 2 ≤ p.2 ∧ p.2 ≤ 0.73 * (p.1 : ℚ) ^ 2 := by
      intro l m h
      induction h with
      | nil => simp
      | cons a _ ih =>
        intro p hp
        rcases List.mem_cons.1 hp with rfl | hp
        · rw [a.1]; exact a.2
        · exact ih p hp
    exact this hp p hp'

/-- C94: an exception of `load_params` is the exception of the program. -/
theorem check_perihelion_params (fl cosF : ℚ → ℚ) (sumF : List ℚ → ℚ) (e : PyErr) :
    checkPerihelion fl cosF sumF (.error e) = .error e := rfl

/-- The hypotheses are met: round to nearest even, a cosine and the pairwise summation. -/
example : ∃ cosF, ∃ lines : List (ℤ × ℚ), checkPerihelion rne cosF (halfSum rne 64) (.ok ()) = .ok lines ∧
    lines.map Prod.fst = (List.range 48).map (fun n : ℕ => (n : ℤ) - 24) := by
  obtain ⟨cosF, hc⟩ := cosLike_exists
  obtain ⟨lines, h1, h2, -⟩ := check_perihelion_lines rounding_rne hc
    (fun l h => halfSum_flSum rne 64 l (h.trans (by norm_num)))
  exact ⟨cosF, lines, h1, h2⟩

end Verif

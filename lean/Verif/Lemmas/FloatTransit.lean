import Verif.Lemmas.FloatRise

/-!
# The loop of `transit` in binary64
-/

namespace Verif
open Real

/-- What the loop needs to know; see `TransitState`. -/
structure TransitStateF (y : ℚ × ℚ × ℚ) (u : ℝ × ℝ × ℝ) (lon TH dT : ℚ) (mu z : ℝ) : Prop where
  red : Reduced (castT y) u
  slow : Slow 0.4 0.1 u
  lonB : |(lon : ℝ)| ≤ π
  theta : NearA TH (y.2.1 + lon - 2 * π * mu) 5e-15
  range : 0 ≤ TH ∧ TH ≤ pi2F
  near : |z - mu| ≤ 0.1
  mu0 : 0 ≤ mu
  mu1 : mu ≤ 1
  zero : localH (castT y) u dT mu z = 0
  fac : |z + dT| ≤ 1.2

theorem TransitStateF.pass {fl : ℚ → ℚ} (hf : FloatLike fl) {y : ℚ × ℚ × ℚ} {u : ℝ × ℝ × ℝ} {lon TH dT : ℚ} {mu z : ℝ}
    (S : TransitStateF y u lon TH dT mu z) {m : ℚ} (hm : |(m : ℝ) - z| ≤ 0.1001)
    (hn : -1 < fl (m + dT) ∧ fl (m + dT) < 1) :
    ∃ m' : ℚ, |(m' : ℝ) - z| ≤ 0.086 * |(m : ℝ) - z| + 9e-15 ∧ ∀ (jd delta : ℚ) (k : ℕ),
      transitLoopF fl jd TH dT y delta lon (k + 1) m =
        if |fl (m' - m)| < delta then .ok (some (fl (jd + m'))) else transitLoopF fl jd TH dT y delta lon k m' := by
  have hk := rsK1_bounds
  have hz := abs_le.mp S.near
  have hm' := abs_le.mp hm
  have m0 := S.mu0
  have m1 := S.mu1
  have p3 := Real.pi_gt_d4
  have p4 := Real.pi_lt_d4
  norm_num at hk hz hm' p3 p4
  have bm : |(m : ℝ)| ≤ 1.201 := by rw [abs_le]; norm_num; constructor <;> linarith
  obtain ⟨hmd, R, eR, nX, bX⟩ := hourF_near hf S.red S.slow S.lonB S.theta (by norm_num) S.range (m := m) bm hn
  have hd := localH_diff (y := castT y) (mu := mu) (m := m) (m' := z) (dT := dT) S.slow hmd S.fac
  rw [S.zero, sub_zero] at hd
  have bH : |localH (castT y) u dT mu m| ≤ 0.7 := by
    have h1 : |rsK1 * (m - z)| ≤ 0.631 := by
      rw [abs_mul, abs_of_pos (by linarith)]
      refine (mul_le_mul (by linarith : rsK1 ≤ 6301 / 1000) hm (abs_nonneg _) (by norm_num)).trans (by norm_num)
    have := abs_add_le (localH (castT y) u dT mu m - rsK1 * (m - z)) (rsK1 * (m - z))
    rw [sub_add_cancel] at this
    have h2 : 13 / 25 * |(m : ℝ) - z| ≤ 0.06 := by norm_num at hm ⊢; linarith
    have h3 := hd.trans (by norm_num at h2 ⊢; exact h2 : _ ≤ (0.06 : ℝ))
    refine this.trans ((add_le_add h3 h1).trans (by norm_num))
  have nH : Near (diffAngleF fl 0 (fl (fl (modpi2F fl pi2F (fl (TH + fl (rsK1F fl * m))) - lon) - R)))
      (localH (castT y) u dT mu m) 4.2e-14 := by
    obtain ⟨k, hk⟩ := nX
    refine (diffAngleF_nearD hf (a := 0) (by norm_num) bX (by rw [Rat.cast_zero, sub_zero]; exact bX) (bH.trans (by norm_num))
      (e := 5e-15 + 3e-14) (by norm_num) ⟨k, ?_⟩).mono (by norm_num)
    unfold Near at hk
    rw [Rat.cast_zero, sub_zero, sub_sub]
    exact hk
  have cs := transit_contracts (y := castT y) (mu := mu) (m := m) S.slow hmd S.fac S.zero
  refine ⟨fl (m + fl (-diffAngleF fl 0 (fl (fl (modpi2F fl pi2F (fl (TH + fl (rsK1F fl * m))) - lon) - R)) / pi2F)), ?_, ?_⟩
  · generalize diffAngleF fl 0 (fl (fl (modpi2F fl pi2F (fl (TH + fl (rsK1F fl * m))) - lon) - R)) = H at *
    generalize localH (castT y) u dT mu m = g at *
    have bq : |-g / (2 * π)| ≤ 0.12 := by
      rw [abs_div, abs_neg, abs_of_pos (by positivity : 0 < 2 * π), div_le_iff₀ (by positivity)]
      norm_num at bH ⊢
      linarith
    have nq : Near (-H / pi2F) (-g / (2 * π)) 6.9e-15 :=
      (nH.neg.div pi2F_near (m := 6.28) (by norm_num) (by unfold pi2F; norm_num) (by positivity) bq).mono (by norm_num)
    have nq' := nq.rnd hf bq (e' := 7e-15) (by rw [uuR, wwR]; norm_num)
    have nm := ((near_self m).add nq').rnd hf (M := 1.33) ((abs_add_le _ _).trans ((add_le_add bm bq).trans (by norm_num)))
      (e' := 8e-15) (by rw [uuR, wwR]; norm_num)
    unfold Near at nm
    unfold pi2 at cs
    have := abs_sub_le ((fl (m + fl (-H / pi2F)) : ℚ) : ℝ) (m + -g / (2 * π)) z
    norm_num at nm cs this ⊢
    linarith
  · intro jd delta k
    conv_lhs => unfold transitLoopF
    simp only [bind, Except.bind]
    rw [if_neg (by tauto), eR]

/-- Result of the loop if the precision is not beyond its reach. -/
theorem TransitStateF.loop {fl : ℚ → ℚ} (hf : FloatLike fl) {y : ℚ × ℚ × ℚ} {u : ℝ × ℝ × ℝ} {lon TH dT : ℚ} {mu z : ℝ}
    (S : TransitStateF y u lon TH dT mu z) (jd delta : ℚ) : ∀ (k : ℕ) (m : ℚ) (d : ℝ), |(m : ℝ) - z| ≤ d + 1e-14 → d ≤ 0.1 →
      0 ≤ d → 1.1 * (0.086 ^ k * d + 3e-14) < delta →
      (transitLoopF fl jd TH dT y delta lon (k + 1) m = .ok none ∧ 0.899 ≤ |z + dT|) ∨
      ∃ m' : ℚ, transitLoopF fl jd TH dT y delta lon (k + 1) m = .ok (some (fl (jd + m'))) ∧
        |(m' : ℝ) - z| ≤ 0.1 * delta + 1e-14 ∧ |(m' : ℝ) - z| ≤ 0.01 := by
  intro k
  induction k with
  | zero =>
    intro m d hd h1 h0 hs
    have hm : |(m : ℝ) - z| ≤ 0.1001 := by norm_num at hd h1 ⊢; linarith
    by_cases hn : -1 < fl (m + dT) ∧ fl (m + dT) < 1
    · right
      obtain ⟨m', c, e⟩ := S.pass hf hm hn
      rw [e]
      have r := hf.errR (m' - m)
      push_cast at r
      rw [uuR, wwR] at r
      have a1 : |(m' : ℝ) - m| ≤ |(m' : ℝ) - z| + |(m : ℝ) - z| := by
        have := abs_sub_le (m' : ℝ) z m
        rwa [abs_sub_comm z (m : ℝ)] at this
      have a2 : |(fl (m' - m) : ℝ)| ≤ |(fl (m' - m) : ℝ) - (m' - m)| + |(m' : ℝ) - m| := by
        have := abs_add_le ((fl (m' - m) : ℝ) - (m' - m)) (m' - m); rwa [sub_add_cancel] at this
      have lt : |(fl (m' - m) : ℝ)| < delta := by
        norm_num at c hd hs r a1 a2 ⊢
        linarith [abs_nonneg ((m : ℝ) - z)]
      have lt' : |fl (m' - m)| < delta := by exact_mod_cast lt
      refine ⟨m', if_pos lt', ?_, by norm_num at c hm ⊢; linarith⟩
      norm_num at c hd hs ⊢
      linarith [abs_nonneg ((m : ℝ) - z)]
    · left
      refine ⟨?_, ?_⟩
      · unfold transitLoopF
        simp only [bind, Except.bind]
        rw [if_pos (by tauto)]
      · have r := hf.errR (m + dT)
        push_cast at r
        rw [uuR, wwR] at r
        have hn' : 1 ≤ |(fl (m + dT) : ℝ)| := by
          rw [not_and_or, not_lt, not_lt] at hn
          rw [le_abs]
          rcases hn with hn | hn
          · right
            have : (fl (m + dT) : ℝ) ≤ -1 := by exact_mod_cast hn
            linarith
          · left; exact_mod_cast hn
        have a2 : |(fl (m + dT) : ℝ)| ≤ |(fl (m + dT) : ℝ) - (m + dT)| + |(m : ℝ) + dT| := by
          have := abs_add_le ((fl (m + dT) : ℝ) - (m + dT)) (m + dT); rwa [sub_add_cancel] at this
        have a3 : |(m : ℝ) + dT| ≤ |(m : ℝ) - z| + |z + dT| := by
          have := abs_add_le ((m : ℝ) - z) (z + dT)
          rwa [show (m : ℝ) - z + (z + dT) = m + dT by ring] at this
        norm_num at r hm ⊢
        linarith
  | succ k ih =>
    intro m d hd h1 h0 hs
    have hm : |(m : ℝ) - z| ≤ 0.1001 := by norm_num at hd h1 ⊢; linarith
    by_cases hn : -1 < fl (m + dT) ∧ fl (m + dT) < 1
    · obtain ⟨m', c, e⟩ := S.pass hf hm hn
      rw [e]
      by_cases lt' : |fl (m' - m)| < delta
      · right
        refine ⟨m', if_pos lt', ?_, by norm_num at c hm ⊢; linarith⟩
        have lt : |(fl (m' - m) : ℝ)| < delta := by exact_mod_cast lt'
        have r := hf.errR (m' - m)
        push_cast at r
        rw [uuR, wwR] at r
        have a0 : |(m : ℝ) - z| ≤ |(m' : ℝ) - m| + |(m' : ℝ) - z| := by
          have := abs_sub_le (m : ℝ) m' z
          rwa [abs_sub_comm (m : ℝ) m'] at this
        have a2 : |(m' : ℝ) - m| ≤ |(fl (m' - m) : ℝ) - (m' - m)| + |(fl (m' - m) : ℝ)| := by
          have := abs_sub_le ((m' : ℝ) - m) (fl (m' - m)) 0
          rw [sub_zero, sub_zero, abs_sub_comm _ (fl (m' - m) : ℝ)] at this
          exact this
        norm_num at c r ⊢
        linarith [abs_nonneg ((m : ℝ) - z)]
      · rw [if_neg lt']
        refine ih m' (0.086 * d) ?_ ?_ (by positivity) ?_
        · norm_num at c hd ⊢; linarith
        · norm_num at h1 ⊢; linarith
        · rw [pow_succ] at hs
          refine lt_of_eq_of_lt ?_ hs
          ring
    · left
      refine ⟨?_, ?_⟩
      · unfold transitLoopF
        simp only [bind, Except.bind]
        rw [if_pos (by tauto)]
      · have r := hf.errR (m + dT)
        push_cast at r
        rw [uuR, wwR] at r
        have hn' : 1 ≤ |(fl (m + dT) : ℝ)| := by
          rw [not_and_or, not_lt, not_lt] at hn
          rw [le_abs]
          rcases hn with hn | hn
          · right
            have : (fl (m + dT) : ℝ) ≤ -1 := by exact_mod_cast hn
            linarith
          · left; exact_mod_cast hn
        have a2 : |(fl (m + dT) : ℝ)| ≤ |(fl (m + dT) : ℝ) - (m + dT)| + |(m : ℝ) + dT| := by
          have := abs_add_le ((fl (m + dT) : ℝ) - (m + dT)) (m + dT); rwa [sub_add_cancel] at this
        have a3 : |(m : ℝ) + dT| ≤ |(m : ℝ) - z| + |z + dT| := by
          have := abs_add_le ((m : ℝ) - z) (z + dT)
          rwa [show (m : ℝ) - z + (z + dT) = m + dT by ring] at this
        norm_num at r hm ⊢
        linarith

/-! ### The first estimate -/

theorem rsReduceF_cases {fl : ℚ → ℚ} (hf : FloatLike fl) {x : ℚ} (hx : x ≤ 2) :
    (rsReduceF fl x = .error (.Error "riseset" "m is out of range") ∧ x < -1) ∨
    ∃ m, rsReduceF fl x = .ok m ∧ 0 ≤ m ∧ m ≤ 1 ∧ -1 - 1e-15 ≤ x ∧ ∃ j : ℤ, |(m : ℝ) - (x + j)| ≤ 1.12e-16 := by
  have h0 : fl 0 = 0 := hf.int (n := 0) (by norm_num)
  have h1 : fl 1 = 1 := by have := hf.int (n := 1) (by norm_num); exact_mod_cast this
  have near : ∀ w : ℚ, |w| ≤ 1 → |((fl w : ℚ) : ℝ) - w| ≤ 1.12e-16 := by
    intro w hw
    have r := hf.errR w
    rw [uuR, wwR] at r
    have hw' : |(w : ℝ)| ≤ 1 := by exact_mod_cast hw
    norm_num at r ⊢
    linarith
  unfold rsReduceF
  simp only
  by_cases a : x < 0
  · rw [if_pos a]
    by_cases b : -1 ≤ x
    · right
      have l := hf.mono (by linarith : (0 : ℚ) ≤ x + 1)
      have u := hf.mono (by linarith : x + 1 ≤ 1)
      rw [h0] at l
      rw [h1] at u
      refine ⟨fl (x + 1), if_neg (not_not.mpr ⟨l, u⟩), l, u, by norm_num; linarith, 1, ?_⟩
      have := near (x + 1) (by rw [abs_le]; constructor <;> linarith)
      push_cast at this ⊢
      exact this
    · by_cases c : 0 ≤ fl (x + 1) ∧ fl (x + 1) ≤ 1
      · right
        have w : |x + 1| ≤ 1 ∧ -1 - 1e-15 ≤ x := by
          have e := hf.err (x + 1)
          rw [not_le] at b
          rw [abs_le, abs_of_neg (by linarith : x + 1 < 0)] at e
          have e2 := e.1
          have e3 := e.2
          have c1 := c.1
          have tiny : (1 : ℚ) / 2 ^ 1074 ≤ 1e-30 :=
            (one_div_le_one_div_of_le (by norm_num) (pow_le_pow_right₀ (by norm_num) (by norm_num : 110 ≤ 1074))).trans
              (by norm_num)
          generalize (1 : ℚ) / 2 ^ 1074 = w at e2 e3 tiny
          norm_num at e2 e3 tiny
          rw [abs_of_neg (by linarith)]
          norm_num
          constructor <;> linarith
        refine ⟨fl (x + 1), if_neg (not_not.mpr c), c.1, c.2, w.2, 1, ?_⟩
        have := near (x + 1) w.1
        push_cast at this ⊢
        exact this
      · left; exact ⟨if_pos c, by linarith⟩
  · rw [if_neg a]
    right
    rw [not_lt] at a
    by_cases b : x > 1
    · rw [if_pos b]
      have l := hf.mono (by linarith : (0 : ℚ) ≤ x - 1)
      have u := hf.mono (by linarith : x - 1 ≤ 1)
      rw [h0] at l
      rw [h1] at u
      refine ⟨fl (x - 1), if_neg (not_not.mpr ⟨l, u⟩), l, u, by norm_num; linarith, -1, ?_⟩
      have := near (x - 1) (by rw [abs_le]; constructor <;> linarith)
      push_cast at this ⊢
      rw [← sub_eq_add_neg]
      exact this
    · rw [if_neg b]
      rw [gt_iff_lt, not_lt] at b
      refine ⟨x, if_neg (not_not.mpr ⟨a, b⟩), a, b, by norm_num; linarith, 0, ?_⟩
      norm_num

/-- The quotient of the first estimate. -/
theorem quotient_near {fl : ℚ → ℚ} (hf : FloatLike fl) {a lon TH : ℚ} (a0 : 0 ≤ (a : ℝ)) (a1 : (a : ℝ) < 2 * π)
    (hl : |(lon : ℝ)| ≤ π) (hT : 0 ≤ TH ∧ TH ≤ pi2F) :
    Near (fl (fl (fl (a + lon) - TH) / pi2F)) ((a + lon - TH) / (2 * π)) 5.8e-16 ∧
      |((a : ℝ) + lon - TH) / (2 * π)| ≤ 1.501 := by
  have p3 := Real.pi_gt_d6
  have p4 := Real.pi_lt_d6
  have hl' := abs_le.mp hl
  have t0 : (0 : ℝ) ≤ TH := by exact_mod_cast hT.1
  have t1 : (TH : ℝ) ≤ 6.2832 := (by exact_mod_cast hT.2 : (TH : ℝ) ≤ pi2F).trans (by unfold pi2F; norm_num)
  norm_num at p3 p4 t1
  have n1 := ((near_self a).add (near_self lon)).rnd hf (M := 9.425) (by rw [abs_le]; norm_num; constructor <;> linarith)
    (e' := 1.048e-15) (by rw [uuR, wwR]; norm_num)
  have n2 := (n1.sub (near_self TH)).rnd hf (M := 9.4251) (by rw [abs_le]; norm_num; constructor <;> linarith)
    (e' := 2.1e-15) (by rw [uuR, wwR]; norm_num)
  have bq : |((a : ℝ) + lon - TH) / (2 * π)| ≤ 1.501 := by
    rw [abs_div, abs_of_pos (by positivity : 0 < 2 * π), div_le_iff₀ (by positivity), abs_le]
    norm_num
    constructor <;> linarith
  exact ⟨(n2.div pi2F_near (m := 6.28) (by norm_num) (by unfold pi2F; norm_num) (by positivity) bq).rnd hf bq
    (by rw [uuR, wwR]; norm_num), bq⟩

/-- The estimate is at least -1 if right ascension plus longitude is not negative. -/
theorem quotient_ge {fl : ℚ → ℚ} (hf : FloatLike fl) {a lon TH : ℚ} (h : 0 ≤ a + lon) (hT : TH ≤ pi2F) :
    -1 ≤ fl (fl (fl (a + lon) - TH) / pi2F) := by
  have h0 : fl 0 = 0 := hf.int (n := 0) (by norm_num)
  have h2 : fl (-1) = -1 := by have := hf.int (n := -1) (by norm_num); exact_mod_cast this
  have hp : fl (-pi2F) = -pi2F := hf.fix _ pi2F_f64.neg
  have p0 : (0 : ℚ) < pi2F := by norm_num [pi2F]
  have a1 := hf.mono h
  rw [h0] at a1
  have a2 := hf.mono (by linarith : -pi2F ≤ fl (a + lon) - TH)
  rw [hp] at a2
  have a3 := hf.mono (show -1 ≤ fl (fl (a + lon) - TH) / pi2F by rw [le_div_iff₀ p0]; linarith)
  rwa [h2] at a3

/-- The first estimate of the code, and the sidereal time it stands for. -/
theorem estimateF {fl : ℚ → ℚ} (hf : FloatLike fl) {a lon TH : ℚ} (a0 : 0 ≤ (a : ℝ)) (a1 : (a : ℝ) < 2 * π)
    (hl : |(lon : ℝ)| ≤ π) (hT : 0 ≤ TH ∧ TH ≤ pi2F) :
    (rsReduceF fl (fl (fl (fl (a + lon) - TH) / pi2F)) = .error (.Error "riseset" "m is out of range") ∧
      (a : ℝ) + lon - TH < -(2 * π) + 1e-14 ∧ a + lon < 0) ∨
    ∃ mu, rsReduceF fl (fl (fl (fl (a + lon) - TH) / pi2F)) = .ok mu ∧ 0 ≤ mu ∧ mu ≤ 1 ∧
      -(2 * π) - 1.5e-14 ≤ (a : ℝ) + lon - TH ∧ NearA TH (a + lon - 2 * π * mu) 5e-15 := by
  have p3 := Real.pi_gt_d6
  have p4 := Real.pi_lt_d6
  norm_num at p3 p4
  obtain ⟨nq, bq⟩ := quotient_near hf a0 a1 hl hT
  have hge : 0 ≤ a + lon → -1 ≤ fl (fl (fl (a + lon) - TH) / pi2F) := fun h => quotient_ge hf h hT.2
  generalize hx : fl (fl (fl (a + lon) - TH) / pi2F) = x at *
  have eq : ((a : ℝ) + lon - TH) = ((a : ℝ) + lon - TH) / (2 * π) * (2 * π) := by field_simp
  generalize ((a : ℝ) + lon - TH) / (2 * π) = q at *
  unfold Near at nq
  rw [abs_le] at nq bq
  norm_num at nq bq
  have hx2 : x ≤ 2 := by
    have : (x : ℝ) ≤ 2 := by linarith
    exact_mod_cast this
  rcases rsReduceF_cases hf hx2 with ⟨e, h⟩ | ⟨mu, e, m0, m1, hlo, j, hj⟩
  · left
    refine ⟨e, ?_, by by_contra hc; linarith [hge (not_lt.mp hc)]⟩
    have hx3 : (x : ℝ) < -1 := by exact_mod_cast h
    rw [eq]
    have : q * (2 * π) < (-1 + 5.8e-16) * (2 * π) := by
      refine mul_lt_mul_of_pos_right ?_ (by positivity)
      norm_num; linarith
    norm_num at this ⊢
    linarith
  · right
    refine ⟨mu, e, m0, m1, ?_, j, ?_⟩
    · have hlo' : -1 - 1e-15 ≤ (x : ℝ) := by
        have : ((-1 - 1e-15 : ℚ) : ℝ) ≤ x := by exact_mod_cast hlo
        push_cast at this
        norm_num at this ⊢
        linarith
      rw [eq]
      have : (-1 - 1e-15 - 5.8e-16) * (2 * π) ≤ q * (2 * π) := by
        refine mul_le_mul_of_nonneg_right ?_ (by positivity)
        norm_num at hlo' ⊢; linarith
      norm_num at this ⊢
      linarith
    · unfold Near
      have e1 : (TH : ℝ) - (a + lon - 2 * π * mu + j * (2 * π)) = (2 * π) * (mu - (x + j) + (x - q)) := by
        linarith [eq]
      rw [e1, abs_mul, abs_of_pos (by positivity)]
      have b1 : |(mu : ℝ) - (x + j) + (x - q)| ≤ 6.93e-16 := by
        rw [abs_le] at hj ⊢
        norm_num at hj ⊢
        constructor <;> linarith
      refine (mul_le_mul (by linarith : 2 * π ≤ 6.2833) b1 (abs_nonneg _) (by norm_num)).trans (by norm_num)

/-- The hour angle and the hour angle near the first estimate. -/
theorem hourAngle_localH_float {jd lon dT dT' mu : ℝ} {TH : ℚ} {y u : ℝ × ℝ × ℝ} (hj : |jd - 2451545| ≤ 1100000)
    (hr : Reduced y u) (hs : Slow 0.4 0.1 u) (ht : NearA TH (gmstDegrees jd * (π / 180)) 7.5e-9)
    (hm : NearA TH (y.2.1 + lon - 2 * π * mu) 5e-15) (hd : |dT - dT'| ≤ 1e-9) (hd2 : |dT| ≤ 2.1) :
    ∃ K : ℤ, ∀ m, |m| ≤ 1.2 →
      |hourAngle jd lon dT' u m - localH y u dT mu m - K * (2 * π)| ≤ 5e-8 := by
  obtain ⟨a, ea⟩ := ht
  obtain ⟨b, eb⟩ := hm
  obtain ⟨c, ec⟩ := hr.2.1.2.2
  refine ⟨b - a + c, fun m hm => ?_⟩
  have g := gmst_uniform hj hm
  have e : hourAngle jd lon dT' u m - localH y u dT mu m - ((b - a + c : ℤ) : ℝ) * (2 * π) =
      (gmstDegrees (jd + m) - gmstDegrees jd - 360.985647 * m) * (π / 180) -
      (TH - (gmstDegrees jd * (π / 180) + a * (2 * π))) + (TH - (y.2.1 + lon - 2 * π * mu + b * (2 * π))) +
      (parabola u (m + dT) - parabola u (m + dT')) := by
    unfold hourAngle localH codeRa rsK1 dToR
    push_cast
    norm_num
    linarith
  have P : |parabola u (m + dT) - parabola u (m + dT')| ≤ 1e-9 := by
    obtain ⟨h1, h2, h3⟩ := hs
    have e : parabola u (m + dT) - parabola u (m + dT') = (dT - dT') *
        (((u.2.1 - u.1) + (u.2.2 - u.2.1)) / 2 + (2 * m + dT + dT') / 2 * (u.1 - 2 * u.2.1 + u.2.2)) := by
      unfold parabola; ring
    rw [e, abs_mul]
    refine (mul_le_mul hd (b := _) (d := 1) ?_ (abs_nonneg _) (by norm_num)).trans (by norm_num)
    have c1 : |(2 * m + dT + dT') / 2| ≤ 3.4 := by
      rw [abs_le] at hm hd hd2 ⊢
      norm_num at hm hd hd2 ⊢
      constructor <;> linarith
    have c2 : |(2 * m + dT + dT') / 2 * (u.1 - 2 * u.2.1 + u.2.2)| ≤ 0.34 := by
      rw [abs_mul]
      refine (mul_le_mul c1 (show |u.1 - 2 * u.2.1 + u.2.2| ≤ 0.1 from ?_) (abs_nonneg _) (by norm_num)).trans (by norm_num)
      first | exact h3 | exact h2 | exact h1 | (have := h3; rw [abs_le] at this ⊢; constructor <;> linarith)
    rw [abs_le] at c2 h1 h2 ⊢
    norm_num at c2 h1 h2 ⊢
    constructor <;> linarith
  rw [e]
  unfold Near at ea eb
  have G : |(gmstDegrees (jd + m) - gmstDegrees jd - 360.985647 * m) * (π / 180)| ≤ 2.3e-8 := by
    first
    | exact g
    | (rw [abs_mul, abs_of_pos (by positivity : 0 < π / 180)]
       have p4 := Real.pi_lt_d6
       norm_num at p4
       refine (mul_le_mul g (by linarith : π / 180 ≤ 0.01745331) (by positivity) (by norm_num)).trans (by norm_num))
  rw [abs_le] at *
  norm_num at *
  constructor <;> linarith

end Verif

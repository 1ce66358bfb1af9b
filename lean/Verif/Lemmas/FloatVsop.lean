import Verif.Lemmas.FloatErr
import Verif.Spec.Poisson

/-!
# Rounding errors of the Poisson series
-/

namespace Verif
open Real

/-- Sum of the amplitudes of a series. -/
def serA (s : List Term) : ℚ := ((s.map fun r => r.1).sum : ℕ) / 10 ^ 11
/-- Sum of the products of amplitude and frequency. -/
def serAC (s : List Term) : ℚ := ((s.map fun r => r.1 * r.2.2).sum : ℕ) / 10 ^ 22

/-- Bound for the error of the sum of a series. -/
def serErr (T : ℚ) (D : ℕ) (s : List Term) : ℚ :=
  uu * (31 * serA s + 10 * (serAC s * T) + 3 * ww * s.length) +
    2 * uu * D * (1.001 * serA s + 2 * ww * s.length)

theorem serA_nonneg (s : List Term) : 0 ≤ serA s := by unfold serA; positivity
theorem serAC_nonneg (s : List Term) : 0 ≤ serAC s := by unfold serAC; positivity

theorem serA_cons (r : Term) (s : List Term) : serA (r :: s) = r.1 / 10 ^ 11 + serA s := by
  unfold serA; push_cast [List.map_cons, List.sum_cons]; ring

theorem serAC_cons (r : Term) (s : List Term) : serAC (r :: s) = r.1 / 10 ^ 11 * (r.2.2 / 10 ^ 11) + serAC s := by
  unfold serAC; push_cast [List.map_cons, List.sum_cons]; ring

theorem seriesVal_abs' (s : List Term) (t : ℝ) : |seriesVal s t| ≤ serA s := by
  induction s with
  | nil => simp [seriesVal, serA]
  | cons r s ih =>
    rw [serA_cons]
    unfold seriesVal at ih ⊢
    rw [List.map_cons, List.sum_cons]
    push_cast
    refine (abs_add_le _ _).trans (add_le_add ?_ ih)
    unfold vsopTerm
    rw [abs_mul, abs_of_nonneg (by positivity : (0 : ℝ) ≤ (r.1 : ℝ) / 10 ^ 11)]
    exact mul_le_of_le_one_right (by positivity) (Real.abs_cos_le_one _)

theorem series_terms {fl : ℚ → ℚ} (hf : FloatLike fl) {cosF : ℚ → ℚ} (hc : CosLike cosF) {tau : ℚ} {τ : ℝ}
    {T : ℚ} (ht : Near tau τ (5 * uu * T)) (hτ : |τ| ≤ T) (hT6 : T ≤ 6) (s : List Term)
    (hs : ∀ r ∈ s, termOk r = true) :
    Near (s.map fun r => vsopTermF fl cosF r tau).sum (seriesVal s τ)
        (uu * (31 * serA s + 10 * (serAC s * T) + 3 * ww * s.length)) ∧
      (((s.map fun r => vsopTermF fl cosF r tau).map fun x => |x| + ww).sum : ℝ) ≤
        1.001 * serA s + 2 * ww * s.length := by
  have T0 : (0 : ℝ) ≤ T := (abs_nonneg _).trans hτ
  have T6 : (T : ℝ) ≤ 6 := by exact_mod_cast hT6
  induction s with
  | nil => simp [seriesVal, serA, serAC, Near]
  | cons r s ih =>
    obtain ⟨i1, i2⟩ := ih fun x hx => hs x (List.mem_cons_of_mem _ hx)
    have hr := hs r (List.mem_cons_self ..)
    have n := vsopTerm_near hf hc hr ht hτ T6
    rw [serA_cons, serAC_cons]
    constructor
    · have := n.add i1
      unfold seriesVal at this ⊢
      simp only [List.map_cons, List.sum_cons, List.length_cons]
      refine this.mono (le_of_eq ?_)
      push_cast
      ring
    · simp only [List.map_cons, List.sum_cons, List.length_cons]
      push_cast
      have ab : |vsopTerm r τ| ≤ (r.1 : ℝ) / 10 ^ 11 := by
        unfold vsopTerm
        rw [abs_mul, abs_of_nonneg (by positivity : (0 : ℝ) ≤ (r.1 : ℝ) / 10 ^ 11)]
        exact mul_le_of_le_one_right (by positivity) (Real.abs_cos_le_one _)
      have b := n.abs ab
      have c2 : (r.2.2 : ℝ) / 10 ^ 11 * T ≤ 2 ^ 25 := by
        unfold termOk at hr
        simp only [Bool.and_eq_true, decide_eq_true_eq] at hr
        have h2 : (r.2.2 : ℝ) ≤ 2 ^ 22 * 10 ^ 11 := by exact_mod_cast hr.2
        have : (r.2.2 : ℝ) / 10 ^ 11 ≤ 2 ^ 22 := by rw [div_le_iff₀ (by positivity)]; exact h2
        refine (mul_le_mul this T6 T0 (by positivity)).trans (by norm_num)
      have A0 : (0 : ℝ) ≤ (r.1 : ℝ) / 10 ^ 11 := by positivity
      have k : (uu : ℝ) * (31 * ((r.1 : ℝ) / 10 ^ 11) + 10 * (r.1 / 10 ^ 11 * (r.2.2 / 10 ^ 11 * T)) + 3 * ww) ≤
          0.001 * (r.1 / 10 ^ 11) + ww := by
        have := mul_le_mul_of_nonneg_left c2 A0
        have w0 := ww_posR
        refine (mul_le_mul_of_nonneg_right uu_leR (by positivity)).trans ?_
        generalize (r.1 : ℝ) / 10 ^ 11 * (r.2.2 / 10 ^ 11 * T) = y at *
        norm_num at this ⊢
        linarith
      push_cast at i2
      norm_num at i2 k b ⊢
      linarith

theorem series_near {fl : ℚ → ℚ} (hf : FloatLike fl) {cosF : ℚ → ℚ} (hc : CosLike cosF)
    {sumF : List ℚ → ℚ} {n D : ℕ} (hsum : SumLike fl n D sumF) (hD : D ≤ 2 ^ 50) {tau : ℚ} {τ : ℝ}
    {T : ℚ} (ht : Near tau τ (5 * uu * T)) (hτ : |τ| ≤ T) (hT6 : T ≤ 6) (s : List Term) (hn : s.length ≤ n)
    (hs : ∀ r ∈ s, termOk r = true) :
    Near (sumF (s.map fun r => vsopTermF fl cosF r tau)) (seriesVal s τ) (serErr T D s) := by
  obtain ⟨h1, h2⟩ := series_terms hf hc ht hτ hT6 s hs
  have h3 := (hsum (s.map fun r => vsopTermF fl cosF r tau) (by simpa using hn)).err hf (by
    have : (D : ℚ) ≤ 2 ^ 50 := by exact_mod_cast hD
    refine (mul_le_mul_of_nonneg_left this (by have := uu_pos; positivity)).trans ?_
    unfold uu; norm_num)
  have h4 : |((sumF (s.map fun r => vsopTermF fl cosF r tau) : ℚ) : ℝ) -
      ((s.map fun r => vsopTermF fl cosF r tau).sum : ℚ)| ≤
      2 * uu * D * (1.001 * serA s + 2 * ww * s.length) := by
    have := (Rat.cast_le (K := ℝ)).mpr h3
    push_cast at this
    push_cast at h2
    push_cast
    refine this.trans (mul_le_mul_of_nonneg_left h2 ?_)
    have := uu_posR; positivity
  unfold Near at h1 ⊢
  refine (abs_sub_le _ _ _).trans ((add_le_add h4 h1).trans (le_of_eq ?_))
  unfold serErr
  push_cast
  ring

/-- Bound for the error after the whole loop. -/
def loopErr (T : ℚ) (D : ℕ) : List (List Term) → ℚ → ℚ → ℚ → ℚ → ℚ
  | [], eX, _, _, _ => eX
  | s :: c, eX, MX, eN, N =>
    let a := serA s
    let P := serErr T D s * (N + eN) + a * eN
    let eX1 := eX + (P + uu * (a * N + P + ww))
    let MX1 := MX + a * N
    let eN1 := eN * (T + 5 * uu * T) + N * (5 * uu * T)
    loopErr T D c (eX1 + uu * (MX1 + eX1 + ww)) MX1 (eN1 + uu * (N * T + eN1 + ww)) (N * T)

theorem vsopLoop_near {fl : ℚ → ℚ} (hf : FloatLike fl) {cosF : ℚ → ℚ} (hc : CosLike cosF)
    {sumF : List ℚ → ℚ} {n D : ℕ} (hsum : SumLike fl n D sumF) (hD : D ≤ 2 ^ 50) {tau : ℚ} {τ : ℝ}
    {T : ℚ} (ht : Near tau τ (5 * uu * T)) (hτ : |τ| ≤ T) (hT6 : T ≤ 6) (c : List (List Term))
    (hn : ∀ s ∈ c, s.length ≤ n) (hs : ∀ s ∈ c, ∀ r ∈ s, termOk r = true) (X' tN' : ℚ) (X tN : ℝ)
    (eX MX eN N : ℚ) (hX : Near X' X eX) (hMX : |X| ≤ MX) (hN : Near tN' tN eN) (hMN : |tN| ≤ N) :
    Near (vsopLoopF fl cosF sumF tau c X' tN') (X + tN * pval c τ) (loopErr T D c eX MX eN N) := by
  induction c generalizing X' tN' X tN eX MX eN N with
  | nil => simpa [vsopLoopF, pval, loopErr] using hX
  | cons s c ih =>
    have nS := series_near hf hc hsum hD ht hτ hT6 s (hn s (List.mem_cons_self ..)) (hs s (List.mem_cons_self ..))
    have aS := seriesVal_abs' s τ
    have T0 : (0 : ℝ) ≤ T := (abs_nonneg _).trans hτ
    have abP : |seriesVal s τ * tN| ≤ serA s * N := by
      rw [abs_mul]; exact mul_le_mul aS hMN (abs_nonneg _) (by exact_mod_cast serA_nonneg s)
    have abX : |X + seriesVal s τ * tN| ≤ MX + serA s * N := (abs_add_le _ _).trans (add_le_add hMX abP)
    have nP := (nS.mul hN aS hMN).fl hf abP
    have nX := (hX.add nP).fl hf abX
    have abN : |tN * τ| ≤ N * T := by
      rw [abs_mul]; exact mul_le_mul hMN hτ (abs_nonneg _) ((abs_nonneg _).trans hMN)
    have nN := (hN.mul ht hMN hτ).fl hf abN
    rw [vsopLoopF, pval, loopErr,
      show X + tN * (seriesVal s τ + τ * pval c τ) = X + seriesVal s τ * tN + tN * τ * pval c τ by ring]
    refine ih (fun s hs => hn s (List.mem_cons_of_mem _ hs)) (fun s h => hs s (List.mem_cons_of_mem _ h))
      _ _ _ _ _ _ _ _ ?_ ?_ ?_ ?_
    · push_cast; exact nX
    · push_cast; exact abX
    · push_cast; exact nN
    · push_cast; exact abN

/-- The time argument. -/
theorem tau_near {fl : ℚ → ℚ} (hf : FloatLike fl) (jd : ℚ) {T : ℝ} (hT : 1 ≤ T) (h : |millennia jd| ≤ T) :
    Near (fl (fl (fl (jd - 2451545) / 36525) / 10)) (millennia jd) (5 * uu * T) := by
  have u0 := uu_posR
  have u1 := uu_leR
  have w0 := ww_posR
  have w1 := ww_leR
  have e0 : |((jd : ℝ) - 2451545)| ≤ 365250 * T := by
    have : (jd : ℝ) - 2451545 = 365250 * millennia jd := by unfold millennia; ring
    rw [this, abs_mul, abs_of_pos (by norm_num)]
    linarith
  have n1 := (near_self (jd - 2451545)).fl hf (M := 365250 * T) (by push_cast; exact e0)
  push_cast at n1
  have e1 : |((jd : ℝ) - 2451545) / 36525| ≤ 10 * T := by
    rw [abs_div, abs_of_pos (by norm_num : (0 : ℝ) < 36525), div_le_iff₀ (by norm_num)]; linarith
  have n2 := n1.div_const (by norm_num : (0 : ℚ) < 36525)
  push_cast at n2
  have n3 := n2.fl hf e1
  have e2 : |millennia jd| ≤ T := h
  have n4 := n3.div_const (by norm_num : (0 : ℚ) < 10)
  push_cast at n4
  rw [show ((jd : ℝ) - 2451545) / 36525 / 10 = millennia jd by unfold millennia; ring] at n4
  refine (n4.fl hf e2).mono ?_
  have wT : (ww : ℝ) ≤ 0.001 * T := by norm_num at w1 ⊢; linarith
  have uT : 0 ≤ (uu : ℝ) * T := by positivity
  have k1 : (uu : ℝ) * ww ≤ uu * (0.001 * T) := mul_le_mul_of_nonneg_left wT u0.le
  have s1 : ∀ x : ℝ, 0 ≤ x → (uu : ℝ) * x ≤ 0.0001 * x := fun x hx =>
    mul_le_mul_of_nonneg_right (by norm_num at u1 ⊢; linarith) hx
  have q1 := s1 (uu * T) uT
  have q2 := s1 (uu * ww) (by positivity)
  have q3 := s1 (uu * (uu * T)) (by positivity)
  have q4 := s1 (uu * (uu * ww)) (by positivity)
  norm_num at k1 q1 q2 q3 q4 ⊢
  nlinarith

end Verif

import Verif.Model.FloatApprox
import Verif.Lemmas.FloatSun
import Verif.Props.EquinoxYear

/-!
# Rounding errors of `equinox_approx`
-/

namespace Verif
open Real

/-! ### Polynomials with any coefficients -/

/-- Bound of a polynomial, from bounds (and errors) of the coefficients. -/
def gM (T : ℚ) : List (ℚ × ℚ) → ℚ
  | [] => 0
  | [q] => q.1
  | q :: qs => q.1 + gM T qs * T

/-- Bound of the rounding error. -/
def gE (T et : ℚ) : List (ℚ × ℚ) → ℚ
  | [] => 0
  | [q] => q.2
  | q :: qs =>
    let e1 := gE T et qs * (T + et) + gM T qs * et
    let e3 := q.2 + (e1 + uu * (gM T qs * T + e1 + ww))
    e3 + uu * (q.1 + gM T qs * T + e3 + ww)

theorem hornerG_near {fl : ℚ → ℚ} (hf : FloatLike fl) {TF : ℚ} {t : ℝ} {T et : ℚ} (ht : Near TF t et)
    (hT : |t| ≤ T) (l : List (ℚ × ℝ × ℚ × ℚ)) (hl : ∀ r ∈ l, |r.2.1| ≤ r.2.2.1 ∧ Near r.1 r.2.1 r.2.2.2) :
    |polyR (l.map fun r => r.2.1) t| ≤ gM T (l.map fun r => r.2.2) ∧
      Near (horner fl TF (l.map fun r => r.1)) (polyR (l.map fun r => r.2.1) t) (gE T et (l.map fun r => r.2.2)) := by
  have T0 : (0 : ℝ) ≤ T := (abs_nonneg _).trans hT
  induction l with
  | nil => simp [polyR, horner, gM, gE, Near]
  | cons q qs ih =>
    obtain ⟨d, c⟩ := hl q (by simp)
    cases qs with
    | nil =>
      simp only [polyR, horner, gM, gE, List.map_cons, List.map_nil]
      exact ⟨d, c⟩
    | cons p ps =>
      obtain ⟨i1, i2⟩ := ih fun r hr => hl r (List.mem_cons_of_mem _ hr)
      simp only [polyR, List.map_cons] at i1 i2 ⊢
      rw [horner_cons2, horner_cons2]
      rw [gM, gE]
      case x_1 => simp
      case x_1 => simp
      generalize horner (fun x : ℝ => x) t (p.2.1 :: ps.map fun r => r.2.1) = y at *
      generalize horner fl TF (p.1 :: ps.map fun r => r.1) = Y at *
      generalize gE T et (p.2.2 :: ps.map fun r => r.2.2) = E at *
      generalize gM T (p.2.2 :: ps.map fun r => r.2.2) = M at *
      have a1 : |y * t| ≤ M * T := by
        rw [abs_mul]; exact mul_le_mul i1 hT (abs_nonneg _) ((abs_nonneg _).trans i1)
      have a2 : |q.2.1 + y * t| ≤ q.2.2.1 + M * T := (abs_add_le _ _).trans (add_le_add d a1)
      constructor
      · push_cast; exact a2
      · have m := (c.add ((i2.mul ht i1 hT).fl hf a1)).fl hf a2
        push_cast
        exact m

/-- The polynomial with rounded literals as coefficients. -/
theorem hornerLit_near {fl : ℚ → ℚ} (hf : FloatLike fl) {TF : ℚ} {t : ℝ} {T et : ℚ} (ht : Near TF t et)
    (hT : |t| ≤ T) (l : List ℚ) {M E : ℚ} (hM : gM T (l.map fun q => (|q|, uu * (|q| + ww))) ≤ M)
    (hE : gE T et (l.map fun q => (|q|, uu * (|q| + ww))) ≤ E) :
    |polyR (l.map fun q : ℚ => (q : ℝ)) t| ≤ M ∧ Near (horner fl TF (l.map fl)) (polyR (l.map fun q : ℚ => (q : ℝ)) t) E := by
  have := hornerG_near hf ht hT (l.map fun q => (fl q, (q : ℝ), |q|, uu * (|q| + ww))) (by
    intro r hr
    obtain ⟨q, -, rfl⟩ := List.mem_map.mp hr
    refine ⟨by push_cast; rfl, ?_⟩
    have := lit_near hf q
    push_cast; exact this)
  simp only [List.map_map, Function.comp_def] at this
  exact ⟨this.1.trans (by exact_mod_cast hM), this.2.mono (by exact_mod_cast hE)⟩

/-! ### The polynomial of `equinox_approx` -/

/-- Checks the error of a polynomial of the tables. -/
def approxOk (c : List ℤ) : Bool :=
  decide (gE 1 (2 * uu) ((c.map fun (x : ℤ) => (x : ℚ) / 100000).map fun q => (|q|, uu * (|q| + ww))) ≤ 8.5e-10)

theorem approx1000_ok : Data.approx1000.all (fun r => approxOk r.2) = true := by decide +kernel
theorem approx3000_ok : Data.approx3000.all (fun r => approxOk r.2) = true := by decide +kernel

theorem lookup_mem {α : Type} {k : String} {v : α} {l : List (String × α)} (h : l.lookup k = some v) : (k, v) ∈ l := by
  obtain ⟨l1, l2, e, -⟩ := List.lookup_eq_some_iff.mp h
  rw [e]; simp

theorem equinoxPolyF_near {fl : ℚ → ℚ} (hf : FloatLike fl) (y : ℤ) (h : -1000 ≤ y ∧ y ≤ 3000) {season : String}
    {p : ℝ} (hp : equinoxPoly y season = .ok p) : ∃ P, equinoxPolyF fl y season = .ok P ∧ Near P p 8.5e-10 := by
  have key : ∀ (c : List ℤ) (z : ℤ), approxOk c = true → |z| ≤ 1000 →
      Near (horner fl (fl ((z : ℚ) / 1000)) (c.map fun (x : ℤ) => fl ((x : ℚ) / 100000)))
        (polyR (c.map fun (x : ℤ) => (x : ℝ) / 100000) ((z : ℝ) / 1000)) 8.5e-10 := by
    intro c z hc hz
    unfold approxOk at hc
    rw [decide_eq_true_eq] at hc
    have hz' : |(z : ℝ) / 1000| ≤ 1 := by
      rw [abs_div, abs_of_pos (by norm_num : (0 : ℝ) < 1000), div_le_one (by norm_num)]; exact_mod_cast hz
    have hzF : Near (fl ((z : ℚ) / 1000)) ((z : ℝ) / 1000) (2 * uu : ℚ) := by
      have n0 : Near ((z : ℚ) / 1000) ((z : ℝ) / 1000) 0 := by simp [Near]
      refine n0.rnd hf hz' ?_
      push_cast; rw [uuR, wwR]; norm_num
    have := (hornerLit_near hf (T := 1) (et := 2 * uu) hzF (by push_cast; exact hz')
      (c.map fun (x : ℤ) => (x : ℚ) / 100000) le_rfl hc).2
    simp only [List.map_map, Function.comp_def] at this
    push_cast at this
    exact this
  unfold equinoxPoly at hp
  unfold equinoxPolyF
  split_ifs at hp ⊢ with hy
  · simp only at hp ⊢
    cases e : Data.approx1000.lookup season with
    | none => rw [e] at hp; simp at hp
    | some c =>
      rw [e] at hp
      simp only [Except.ok.injEq] at hp
      refine ⟨_, rfl, ?_⟩
      rw [← hp]
      have ok : approxOk c = true := List.all_eq_true.mp approx1000_ok (season, c) (lookup_mem e)
      exact key c y ok (by rw [abs_le]; exact hy)
  · simp only at hp ⊢
    cases e : Data.approx3000.lookup season with
    | none => rw [e] at hp; simp at hp
    | some c =>
      rw [e] at hp
      simp only [Except.ok.injEq] at hp
      refine ⟨_, rfl, ?_⟩
      rw [← hp]
      have ok : approxOk c = true := List.all_eq_true.mp approx3000_ok (season, c) (lookup_mem e)
      have := key c (y - 2000) ok (by rw [abs_le]; omega)
      push_cast at this ⊢
      exact this

/-! ### The periodic terms -/

theorem sum_nearG {α : Type} (l : List α) (F : α → ℚ) (f e : α → ℝ) (h : ∀ r ∈ l, Near (F r) (f r) (e r)) :
    Near (l.map F).sum (l.map f).sum (l.map e).sum := by
  induction l with
  | nil => simp [Near]
  | cons r l ih =>
    simp only [List.map_cons, List.sum_cons]
    exact (h r (by simp)).add (ih fun s hs => h s (List.mem_cons_of_mem _ hs))

/-- The range of the rows. -/
def eqRowOk (r : ℤ × ℤ × ℤ) : Bool :=
  decide (0 ≤ r.1 ∧ |r.2.1| ≤ 360000 ∧ |r.2.2| ≤ 445268000)

theorem eqRows_ok : Data.equinoxTerms.all eqRowOk = true := by decide +kernel

theorem equinoxTermF_near {fl : ℚ → ℚ} (hf : FloatLike fl) {cosF : ℚ → ℚ} (hc : CosLike cosF) {TF : ℚ} {t : ℝ}
    (ht : Near TF t 3.9e-14) (hT : |t| ≤ 30) {r : ℤ × ℤ × ℤ} (ok : eqRowOk r = true) :
    Near (equinoxTermF fl cosF TF r) ((r.1 : ℝ) * cos (dToR (r.2.1 / 1000) + dToR (r.2.2 / 1000) * t))
      (r.1 * 5.1e-10 + 1e-40) := by
  obtain ⟨A, b, c⟩ := r
  unfold eqRowOk at ok
  simp only [decide_eq_true_eq] at ok
  obtain ⟨o1, o2, o3⟩ := ok
  unfold equinoxTermF
  simp only
  have lb : |(((b : ℚ) / 1000 : ℚ) : ℝ)| ≤ 360 := by
    push_cast
    rw [abs_div, abs_of_pos (by norm_num : (0 : ℝ) < 1000), div_le_iff₀ (by norm_num)]
    have : |(b : ℝ)| ≤ 360000 := by exact_mod_cast o2
    linarith
  have lc : |(((c : ℚ) / 1000 : ℚ) : ℝ)| ≤ 445268 := by
    push_cast
    rw [abs_div, abs_of_pos (by norm_num : (0 : ℝ) < 1000), div_le_iff₀ (by norm_num)]
    have : |(c : ℝ)| ≤ 445268000 := by exact_mod_cast o3
    linarith
  have nb : Near (dToRF fl (fl ((b : ℚ) / 1000))) (dToR ((b : ℝ) / 1000)) 2.5e-15 := by
    have := radF_near hf ((b : ℚ) / 1000)
    push_cast at this lb
    refine this.mono ?_
    rw [uuR, wwR]; generalize |(b : ℝ) / 1000| = m at *
    norm_num; linarith
  have nc : Near (dToRF fl (fl ((c : ℚ) / 1000))) (dToR ((c : ℝ) / 1000)) 3e-12 := by
    have := radF_near hf ((c : ℚ) / 1000)
    push_cast at this lc
    refine this.mono ?_
    rw [uuR, wwR]; generalize |(c : ℝ) / 1000| = m at *
    norm_num; linarith
  have mb : |dToR ((b : ℝ) / 1000)| ≤ 6.3 := by
    refine (dToR_abs_le _).trans ?_
    push_cast at lb
    norm_num; linarith
  have mc : |dToR ((c : ℝ) / 1000)| ≤ 7775 := by
    refine (dToR_abs_le _).trans ?_
    push_cast at lc
    norm_num; linarith
  have a1 : |dToR ((c : ℝ) / 1000) * t| ≤ 233250 := by
    rw [abs_mul]; exact (mul_le_mul mc hT (abs_nonneg _) (by norm_num)).trans (by norm_num)
  have n1 := (nc.mul ht mc hT).rnd hf a1 (e' := 4.5e-10) (by rw [uuR, wwR]; norm_num)
  have a2 : |dToR ((b : ℝ) / 1000) + dToR ((c : ℝ) / 1000) * t| ≤ 233257 :=
    (abs_add_le _ _).trans ((add_le_add mb a1).trans (by norm_num))
  have n2 := ((nb.add n1).rnd hf a2 (e' := 5e-10) (by rw [uuR, wwR]; norm_num)).cos hc
  have n2' := n2.mono (e' := 5.01e-10) (by rw [uuR]; norm_num)
  have A0 : (0 : ℝ) ≤ A := by exact_mod_cast o1
  have n3 := (near_self (A : ℚ)).mul n2' (M := A) (by push_cast; rw [abs_of_nonneg A0]) (abs_cos_le_one _)
  have a3 : |((A : ℚ) : ℝ) * cos (dToR ((b : ℝ) / 1000) + dToR ((c : ℝ) / 1000) * t)| ≤ A := by
    rw [abs_mul]; push_cast; rw [abs_of_nonneg A0]
    exact mul_le_of_le_one_right A0 (abs_cos_le_one _)
  have n4 := n3.rnd hf a3 (e' := A * 5.1e-10 + 1e-40) (by rw [uuR, wwR]; norm_num; linarith)
  push_cast at n4 ⊢
  exact n4

theorem eqTerms_sum : (Data.equinoxTerms.map fun r => r.1).sum = 1978 ∧ Data.equinoxTerms.length = 24 := by decide +kernel

theorem equinoxSumF_near {fl : ℚ → ℚ} (hf : FloatLike fl) {cosF : ℚ → ℚ} (hc : CosLike cosF) {sumF : List ℚ → ℚ}
    (hs : PySumLike sumF) {TF : ℚ} {t : ℝ} (ht : Near TF t 3.9e-14) (hT : |t| ≤ 30) :
    Near (sumF (Data.equinoxTerms.map fun r => equinoxTermF fl cosF TF r)) (Data.equinoxTerms.map fun r =>
      (r.1 : ℝ) * cos (dToR (r.2.1 / 1000) + dToR (r.2.2 / 1000) * t)).sum 1.02e-6 := by
  have rows := List.all_eq_true.mp eqRows_ok
  have n := sum_nearG Data.equinoxTerms (fun r => equinoxTermF fl cosF TF r) _ (fun r => (r.1 : ℝ) * 5.1e-10 + 1e-40)
    fun r hr => equinoxTermF_near hf hc ht hT (rows r hr)
  have s := hs (Data.equinoxTerms.map fun r => equinoxTermF fl cosF TF r) (by
    rw [List.length_map, eqTerms_sum.2]; norm_num)
  have bnd : ∀ l : List (ℤ × ℤ × ℤ), (∀ r ∈ l, eqRowOk r = true) →
      ((((l.map fun r => equinoxTermF fl cosF TF r).map fun x => |x| + 1 / 10 ^ 30).sum : ℚ) : ℝ) ≤
        ((l.map fun r => r.1).sum : ℤ) * 1.1 + l.length * (2 / 10 ^ 30) ∧
      (l.map fun r => ((r.1 : ℝ) * 5.1e-10 + 1e-40)).sum = ((l.map fun r => r.1).sum : ℤ) * 5.1e-10 + l.length * 1e-40 := by
    intro l hl
    induction l with
    | nil => simp
    | cons r l ih =>
      obtain ⟨i1, i2⟩ := ih fun r hr => hl r (List.mem_cons_of_mem _ hr)
      simp only [List.map_cons, List.sum_cons, List.length_cons]
      rw [i2]
      have ok := hl r (by simp)
      have a := equinoxTermF_near hf hc ht hT ok
      unfold eqRowOk at ok
      simp only [decide_eq_true_eq] at ok
      have A0 : (0 : ℝ) ≤ r.1 := by exact_mod_cast ok.1
      have b := a.abs (M := r.1) (by
        rw [abs_mul, abs_of_nonneg A0]; exact mul_le_of_le_one_right A0 (abs_cos_le_one _))
      constructor
      · generalize ((l.map fun r => equinoxTermF fl cosF TF r).map fun x => |x| + 1 / 10 ^ 30).sum = σ at *
        push_cast at i1 ⊢
        generalize |(equinoxTermF fl cosF TF r : ℝ)| = m at *
        generalize ((((l.map fun r => r.1).sum : ℤ)) : ℝ) = q at *
        norm_num at b i1 ⊢; linarith
      · push_cast; ring
  obtain ⟨b1, b2⟩ := bnd _ rows
  rw [eqTerms_sum.1, eqTerms_sum.2] at b1 b2
  rw [b2] at n
  rw [List.length_map, eqTerms_sum.2] at s
  have s' := (Rat.cast_le (K := ℝ)).mpr s
  generalize ((Data.equinoxTerms.map fun r => equinoxTermF fl cosF TF r).map fun x => |x| + 1 / 10 ^ 30).sum = σ at *
  generalize sumF (Data.equinoxTerms.map fun r => equinoxTermF fl cosF TF r) = S at *
  generalize (Data.equinoxTerms.map fun r => equinoxTermF fl cosF TF r).sum = Z at *
  unfold Near at n ⊢
  push_cast at s' b1
  refine (abs_sub_le _ (Z : ℝ) _).trans ?_
  norm_num at s' b1 n ⊢
  linarith

theorem deltaLambda_ge (W : ℝ) : 0.96 ≤ 1 + 0.0334 * cos W + 0.0007 * cos (2 * W) := by
  have a := neg_one_le_cos W
  have b := neg_one_le_cos (2 * W)
  norm_num; linarith

theorem equinoxCorrectionF_near {fl : ℚ → ℚ} (hf : FloatLike fl) {cosF : ℚ → ℚ} (hc : CosLike cosF)
    {sumF : List ℚ → ℚ} (hs : PySumLike sumF) {P : ℚ} {p : ℝ} (hp : Near P p 8.5e-10) (hT : |jcent p| ≤ 30) :
    Near (equinoxCorrectionF fl cosF sumF P) (equinoxCorrection p) 2e-11 := by
  have tp : |jcent (P : ℝ) - jcent p| ≤ 2.4e-14 := by
    unfold Near at hp
    unfold jcent
    rw [← sub_div, abs_div, abs_of_pos (by norm_num : (0 : ℝ) < 36525), div_le_iff₀ (by norm_num)]
    rw [show (P : ℝ) - 2451545 - (p - 2451545) = P - p by ring]
    norm_num at hp ⊢; linarith
  have t60 : |jcent (P : ℝ)| ≤ 60 := by
    have := abs_sub_abs_le_abs_sub (jcent (P : ℝ)) (jcent p)
    norm_num at tp; linarith
  have ht : Near (jcentF fl P) (jcent p) 3.9e-14 := by
    have n := jcentF_near hf t60
    unfold Near at n ⊢
    refine (abs_sub_le _ (jcent (P : ℝ)) _).trans ?_
    push_cast at n; rw [uuR] at n
    norm_num at n tp ⊢; linarith
  have S := equinoxSumF_near hf hc hs ht hT
  have k := sum_cos_abs Data.equinoxTerms (fun r => r.1)
    (fun r => cos (dToR (r.2.1 / 1000) + dToR (r.2.2 / 1000) * jcent p)) fun r => abs_cos_le_one _
  have n : (Data.equinoxTerms.map fun r => r.1.natAbs).sum = 1978 := by decide +kernel
  rw [n] at k
  unfold equinoxCorrectionF equinoxCorrection
  simp only
  generalize (Data.equinoxTerms.map fun r => (r.1 : ℝ) * cos (dToR (r.2.1 / 1000) + dToR (r.2.2 / 1000) * jcent p)).sum = σ at *
  generalize sumF (Data.equinoxTerms.map fun r => equinoxTermF fl cosF (jcentF fl P) r) = Z at *
  generalize jcentF fl P = TF at *
  generalize jcent p = t at *
  -- the angle
  have l1 := (lit_near hf (35999.373 : ℚ)).mono (e' := 4.1e-12) (by rw [uuR, wwR]; push_cast; norm_num)
  have m1 : |((35999.373 : ℚ) : ℝ)| ≤ 36000 := by push_cast; norm_num
  have a1 : |((35999.373 : ℚ) : ℝ) * t| ≤ 1080000 := by
    rw [abs_mul]; exact (mul_le_mul m1 hT (abs_nonneg _) (by norm_num)).trans (by norm_num)
  have n1 := (l1.mul ht m1 hT).rnd hf a1 (e' := 1.8e-9) (by rw [uuR, wwR]; norm_num)
  have l2 := (lit_near hf (2.47 : ℚ)).mono (e' := 3e-16) (by rw [uuR, wwR]; push_cast; norm_num)
  have a2 : |((35999.373 : ℚ) : ℝ) * t - ((2.47 : ℚ) : ℝ)| ≤ 1080003 := (abs_sub _ _).trans (by push_cast at a1 ⊢; norm_num at a1 ⊢; linarith)
  have n2 := (n1.sub l2).rnd hf a2 (e' := 2e-9) (by rw [uuR, wwR]; norm_num)
  have W := (dToRF_near hf n2 a2).mono (e' := 5e-11) (by rw [uuR, wwR]; norm_num)
  have eW : dToR (((35999.373 : ℚ) : ℝ) * t - ((2.47 : ℚ) : ℝ)) = dToR (35999.373 * t - 2.47) := by push_cast; rfl
  rw [eW] at W
  have mW : |dToR (35999.373 * t - 2.47)| ≤ 18900 := by
    refine (dToR_abs_le _).trans ?_
    push_cast at a2
    norm_num at a2 ⊢; linarith
  generalize dToR (35999.373 * t - 2.47) = w at *
  generalize dToRF fl (fl (fl (fl 35999.373 * TF) - fl 2.47)) = WF at *
  have c1 := (W.cos hc).mono (e' := 6e-11) (by rw [uuR]; norm_num)
  have W2 : Near (fl (2 * WF)) (2 * w) 1.1e-10 := by
    have := ((near_self (2 : ℚ)).mul W (M := 2) (by norm_num) mW).rnd hf (M := 37800) (e' := 1.1e-10)
      (by rw [abs_mul]; norm_num; linarith) (by rw [uuR, wwR]; norm_num)
    push_cast at this; exact this
  have c2 := (W2.cos hc).mono (e' := 1.2e-10) (by rw [uuR]; norm_num)
  have l3 := (lit_near hf (0.0334 : ℚ)).mono (e' := 4e-18) (by rw [uuR, wwR]; push_cast; norm_num)
  have l4 := (lit_near hf (0.0007 : ℚ)).mono (e' := 4e-18) (by rw [uuR, wwR]; push_cast; norm_num)
  have m3 : |((0.0334 : ℚ) : ℝ)| ≤ 0.0334 := by push_cast; norm_num
  have m4 : |((0.0007 : ℚ) : ℝ)| ≤ 0.0007 := by push_cast; norm_num
  have a3 : |((0.0334 : ℚ) : ℝ) * cos w| ≤ 0.0334 := by
    rw [abs_mul]; exact (mul_le_mul m3 (abs_cos_le_one _) (abs_nonneg _) (by norm_num)).trans (by norm_num)
  have a4 : |((0.0007 : ℚ) : ℝ) * cos (2 * w)| ≤ 0.0007 := by
    rw [abs_mul]; exact (mul_le_mul m4 (abs_cos_le_one _) (abs_nonneg _) (by norm_num)).trans (by norm_num)
  have n3 := (l3.mul c1 m3 (abs_cos_le_one _)).rnd hf a3 (e' := 2.1e-12) (by rw [uuR, wwR]; norm_num)
  have n4 := (l4.mul c2 m4 (abs_cos_le_one _)).rnd hf a4 (e' := 1e-13) (by rw [uuR, wwR]; norm_num)
  have a5 : |((1 : ℚ) : ℝ) + ((0.0334 : ℚ) : ℝ) * cos w| ≤ 1.04 := (abs_add_le _ _).trans (by
    norm_num at a3 ⊢; linarith)
  have n5 := ((near_self (1 : ℚ)).add n3).rnd hf a5 (e' := 2.2e-12) (by rw [uuR, wwR]; norm_num)
  have a6 : |((1 : ℚ) : ℝ) + ((0.0334 : ℚ) : ℝ) * cos w + ((0.0007 : ℚ) : ℝ) * cos (2 * w)| ≤ 1.05 := (abs_add_le _ _).trans (by
    norm_num at a4 a5 ⊢; linarith)
  have n6 := (n5.add n4).rnd hf a6 (e' := 2.4e-12) (by rw [uuR, wwR]; norm_num)
  have e6 : ((1 : ℚ) : ℝ) + ((0.0334 : ℚ) : ℝ) * cos w + ((0.0007 : ℚ) : ℝ) * cos (2 * w) =
      1 + 0.0334 * cos w + 0.0007 * cos (2 * w) := by push_cast; rfl
  rw [e6] at n6
  have ge := deltaLambda_ge w
  generalize 1 + 0.0334 * cos w + 0.0007 * cos (2 * w) = dl at *
  generalize fl (fl (1 + fl (fl 0.0334 * cosF WF)) + fl (fl 0.0007 * cosF (fl (2 * WF)))) = DL at *
  have l7 := (lit_near hf (0.00001 : ℚ)).mono (e' := 2e-21) (by rw [uuR, wwR]; push_cast; norm_num)
  have m7 : |((0.00001 : ℚ) : ℝ)| ≤ 0.00001 := by push_cast; norm_num
  have k' : |σ| ≤ 1978 := by exact_mod_cast k
  have a7 : |((0.00001 : ℚ) : ℝ) * σ| ≤ 0.01978 := by
    rw [abs_mul]; exact (mul_le_mul m7 k' (abs_nonneg _) (by norm_num)).trans (by norm_num)
  have n7 := (l7.mul S m7 k').rnd hf a7 (e' := 1.03e-11) (by rw [uuR, wwR]; norm_num)
  have dl0 : 0 < dl := by norm_num at ge; linarith
  have a8 : |((0.00001 : ℚ) : ℝ) * σ / dl| ≤ 0.0207 := by
    rw [abs_div, abs_of_pos dl0, div_le_iff₀ dl0]
    norm_num at a7 ge ⊢; linarith
  have n8 := (n7.div n6 (m := 0.95) (by norm_num) (by
    have := (abs_le.mp n6).1
    norm_num at this ge ⊢; linarith) dl0 a8).rnd hf a8 (e' := 2e-11) (by rw [uuR, wwR]; norm_num)
  push_cast at n8
  exact n8

theorem equinoxApproxF_near {fl : ℚ → ℚ} (hf : FloatLike fl) {cosF : ℚ → ℚ} (hc : CosLike cosF)
    {sumF : List ℚ → ℚ} (hs : PySumLike sumF) (y : ℤ) (h : -1000 ≤ y ∧ y ≤ 3000) (season : String)
    (hn : season ∈ seasonNames) :
    ∃ (A : ℚ) (a : ℝ), equinoxApproxF fl cosF sumF seasonNames y season = .ok A ∧
      equinoxApprox seasonNames y season = .ok a ∧ Near A a 2e-9 := by
  have r : (-1000 : ℚ) ≤ y ∧ (y : ℚ) ≤ 3000 := by exact_mod_cast h
  have t : trunc (y : ℚ) = y := by unfold trunc; split_ifs <;> simp
  have e := equinoxPoly_eq y h.1 season hn
  obtain ⟨P, e1, nP⟩ := equinoxPolyF_near hf y h e
  have c := allYears_spec mean_check y h
  rw [List.all_eq_true] at c
  have hi : ∃ i : ℕ, (season, i) ∈ ["spring", "summer", "autumn", "winter"].zipIdx := by
    simp only [seasonNames, List.mem_cons, List.not_mem_nil, or_false] at hn
    rcases hn with rfl | rfl | rfl | rfl
    exacts [⟨0, by decide⟩, ⟨1, by decide⟩, ⟨2, by decide⟩, ⟨3, by decide⟩]
  obtain ⟨i, hi⟩ := hi
  have c := c (season, i) hi
  rw [decide_eq_true_eq] at c
  have c2 : |(apN season y : ℝ) - 2451545 * 10 ^ 17| ≤ 1095677 * 10 ^ 17 := by exact_mod_cast c.2
  have c3 : |(apN season y : ℝ) / 10 ^ 17 - 2451545| ≤ 1095677 := by
    rw [show (apN season y : ℝ) / 10 ^ 17 - 2451545 = ((apN season y : ℝ) - 2451545 * 10 ^ 17) / 10 ^ 17 by field_simp,
      abs_div, abs_of_pos (by norm_num : (0 : ℝ) < 10 ^ 17), div_le_iff₀ (by norm_num)]
    exact c2
  generalize (apN season y : ℝ) / 10 ^ 17 = p at *
  have hT : |jcent p| ≤ 30 := by
    unfold jcent
    rw [abs_div, abs_of_pos (by norm_num : (0 : ℝ) < 36525), div_le_iff₀ (by norm_num)]
    norm_num; linarith
  have nC := equinoxCorrectionF_near hf hc hs nP hT
  have cb := equinoxCorrection_abs p
  have pb : |p + equinoxCorrection p| ≤ 3547300 := by
    have := abs_add_le (p - 2451545) (equinoxCorrection p + 2451545)
    have h2 := abs_add_le (equinoxCorrection p) 2451545
    rw [show p - 2451545 + (equinoxCorrection p + 2451545) = p + equinoxCorrection p by ring] at this
    rw [abs_of_pos (by norm_num : (0 : ℝ) < 2451545)] at h2
    norm_num at cb; linarith
  refine ⟨_, _, ?_, ?_, (nP.add nC).rnd hf pb (e' := 2e-9) (by rw [uuR, wwR]; norm_num)⟩
  · unfold equinoxApproxF
    rw [if_neg (not_not.mpr r), if_neg (not_not.mpr hn), t, e1]; rfl
  · unfold equinoxApprox
    rw [if_neg (not_not.mpr r), if_neg (not_not.mpr hn), t, e]; rfl

end Verif

import Verif.Lemmas.FloatNut2

/-!
# Rounding errors of the nutation: the sums
-/

namespace Verif
open Real

theorem foldF_near {fl : ℚ → ℚ} (hf : FloatLike fl) {α : Type} (l : List α) (f : α → ℚ) (g : α → ℝ) (m : α → ℚ)
    (h : ∀ r ∈ l, |g r| ≤ m r ∧ Near (f r) (g r) (6.2e-9 * m r + 2e-13)) (A : ℚ) (a e : ℝ) (S : ℚ)
    (n : Near A a e) (hS : |a| + ((l.map m).sum : ℚ) ≤ S) (hS1 : S ≤ 100)
    (he : e + 6.2e-9 * ((l.map m).sum : ℚ) + 3e-13 * l.length ≤ 1) :
    Near (l.foldl (fun s r => fl (s + f r)) A) (a + (l.map g).sum)
      (e + 6.2e-9 * ((l.map m).sum : ℚ) + 3e-13 * l.length) := by
  induction l generalizing A a e with
  | nil => simpa using n
  | cons r l ih =>
    obtain ⟨h1, h2⟩ := h r (List.mem_cons_self ..)
    simp only [List.map_cons, List.sum_cons, List.foldl_cons, List.length_cons] at hS he ⊢
    have m0 : (0 : ℝ) ≤ ((l.map m).sum : ℚ) := by
      have : 0 ≤ (l.map m).sum := by
        apply List.sum_nonneg
        intro y hy
        obtain ⟨x, hx, rfl⟩ := List.mem_map.mp hy
        have := (abs_nonneg _).trans (h x (List.mem_cons_of_mem _ hx)).1
        exact_mod_cast this
      exact_mod_cast this
    generalize (l.map m).sum = σ at *
    push_cast at hS he
    have l0 : (0 : ℝ) ≤ l.length := Nat.cast_nonneg _
    have g0 := (abs_nonneg _).trans h1
    have S1 : (S : ℝ) ≤ 100 := by exact_mod_cast hS1
    have ab : |a + g r| ≤ 100 := (abs_add_le _ _).trans (by linarith)
    have e0 := n.nonneg
    have n' := (n.add h2).rnd hf ab (e' := e + 6.2e-9 * m r + 3e-13) (by
      rw [uuR, wwR]; norm_num at he ⊢; linarith)
    have := ih (fun x hx => h x (List.mem_cons_of_mem _ hx)) _ _ _ n'
      (by linarith [abs_add_le a (g r)])
      (by norm_num at he ⊢; linarith)
    rw [← add_assoc]
    refine this.mono (le_of_eq ?_)
    push_cast; ring

theorem nutTerm_near {fl : ℚ → ℚ} (hf : FloatLike fl) {C s : ℚ} {c y M : ℝ} (hc : |c| ≤ M) (hM : M ≤ 100)
    (nc : Near C c 1e-13) (hy : |y| ≤ 1) (ny : Near s y (6e-9 + 8 * uu)) :
    |c * y| ≤ M ∧ Near (fl (C * s)) (c * y) (6.2e-9 * M + 2e-13) := by
  have M0 := (abs_nonneg _).trans hc
  have a : |c * y| ≤ M := by
    rw [abs_mul]; exact (mul_le_mul hc hy (abs_nonneg _) M0).trans (by rw [mul_one])
  refine ⟨a, (nc.mul ny hc hy).rnd hf a ?_⟩
  rw [uuR, wwR]
  norm_num
  linarith

/-- Bound of the coefficient of a row. -/
def rowM (K t : ℤ) : ℚ := |(K : ℚ)| / 10000 + |(t : ℚ)| / 100000 * 60

theorem rowM_le (K t : ℤ) : |(K : ℝ) / 10000| + |(t : ℝ) / 100000| * 60 ≤ rowM K t := by
  unfold rowM
  rw [abs_div, abs_div, abs_of_pos (by norm_num : (0 : ℝ) < 10000), abs_of_pos (by norm_num : (0 : ℝ) < 100000)]
  push_cast
  exact le_rfl

theorem psi_rows : ∀ r ∈ Data.nutationTable, rowM r.2.2.2.2.2.1 r.2.2.2.2.2.2.1 ≤ 100 := by decide +kernel
theorem eps_rows : ∀ r ∈ Data.nutationTable, rowM r.2.2.2.2.2.2.2.1 r.2.2.2.2.2.2.2.2 ≤ 100 := by decide +kernel
theorem psi_sum : (Data.nutationTable.map fun r : NutRow => rowM r.2.2.2.2.2.1 r.2.2.2.2.2.2.1).sum ≤ 20.6 := by
  decide +kernel
theorem eps_sum : (Data.nutationTable.map fun r : NutRow => rowM r.2.2.2.2.2.2.2.1 r.2.2.2.2.2.2.2.2).sum ≤ 10.2 := by
  decide +kernel
theorem nut_length : Data.nutationTable.length = 63 := by decide +kernel

/-- Rounding errors of the nutation in longitude, within 6000 years of J2000. -/
theorem nutationInLongitudeF_near {fl : ℚ → ℚ} (hf : FloatLike fl) {lib : NumLib} {D : ℕ} (hl : lib.Good fl D)
    {jd : ℚ} (h : |jcent jd| ≤ 60) :
    Near (nutationInLongitudeF fl lib jd) (nutationInLongitude jd) 7e-13 := by
  have hc := nutConstantsF_near hf h
  have hT := jcentF_near hf h
  rw [nutationInLongitude_eq]
  unfold nutationInLongitudeF
  simp only
  generalize nutConstantsF fl (jcentF fl jd) = c at *
  have k := foldF_near hf Data.nutationTable
    (fun r : NutRow => fl (nutCoeffF fl r.2.2.2.2.2.1 r.2.2.2.2.2.2.1 (jcentF fl jd) *
      lib.sinF (nutArgF fl c r.1 r.2.1 r.2.2.1 r.2.2.2.1 r.2.2.2.2.1)))
    (fun r : NutRow => ((r.2.2.2.2.2.1 : ℝ) / 10000 + r.2.2.2.2.2.2.1 / 100000 * jcent jd) * sin (nutArg (jcent jd) r))
    (fun r : NutRow => rowM r.2.2.2.2.2.1 r.2.2.2.2.2.2.1)
    (by
      intro r hr
      have m1 : (rowM r.2.2.2.2.2.1 r.2.2.2.2.2.2.1 : ℝ) ≤ 100 := by exact_mod_cast psi_rows r hr
      obtain ⟨a, b⟩ := nutCoeff_near hf h hT (rowM_le r.2.2.2.2.2.1 r.2.2.2.2.2.2.1) m1
      exact nutTerm_near hf a m1 b (Real.abs_sin_le_one _) ((nutArgF_near hf hc (rows_ok r hr)).sin hl.sin))
    0 0 0 20.6 (by simp [Near]) (by
      have := psi_sum
      have := (Rat.cast_le (K := ℝ)).mpr this
      simp only [abs_zero, zero_add]; exact this) (by norm_num) (by
      have := psi_sum
      have := (Rat.cast_le (K := ℝ)).mpr this
      rw [nut_length]
      push_cast at this ⊢
      norm_num at this ⊢; linarith)
  have pa := nutPsi_abs (jcent jd)
  change Near (dToRF fl (fl (Data.nutationTable.foldl _ 0 / 3600))) _ _
  rw [zero_add] at k
  have k2 := k.mono (e' := 1.3e-7) (by
      have := psi_sum
      have := (Rat.cast_le (K := ℝ)).mpr this
      rw [nut_length]
      push_cast at this ⊢
      norm_num at this ⊢; linarith)
  have q1 : |nutPsi (jcent jd) / (3600 : ℚ)| ≤ 0.006 := by
    push_cast
    rw [abs_div, abs_of_pos (by norm_num : (0 : ℝ) < 3600), div_le_iff₀ (by norm_num)]
    norm_num at pa ⊢; linarith
  have k3 := (k2.div_const (k := 3600) (by norm_num)).rnd hf (e' := 3.7e-11) q1 (by rw [uuR, wwR]; norm_num)
  have k4 := (dToRF_near hf k3 q1).mono (e' := 7e-13) (by rw [uuR, wwR]; norm_num)
  push_cast at k4
  exact k4

/-- Rounding errors of the nutation in obliquity, within 6000 years of J2000. -/
theorem nutationInObliquityF_near {fl : ℚ → ℚ} (hf : FloatLike fl) {lib : NumLib} {D : ℕ} (hl : lib.Good fl D)
    {jd : ℚ} (h : |jcent jd| ≤ 60) :
    Near (nutationInObliquityF fl lib jd) (nutationInObliquity jd) 7e-13 := by
  have hc := nutConstantsF_near hf h
  have hT := jcentF_near hf h
  rw [nutationInObliquity_eq]
  unfold nutationInObliquityF
  simp only
  generalize nutConstantsF fl (jcentF fl jd) = c at *
  have k := foldF_near hf Data.nutationTable
    (fun r : NutRow => fl (nutCoeffF fl r.2.2.2.2.2.2.2.1 r.2.2.2.2.2.2.2.2 (jcentF fl jd) *
      lib.cosF (nutArgF fl c r.1 r.2.1 r.2.2.1 r.2.2.2.1 r.2.2.2.2.1)))
    (fun r : NutRow => ((r.2.2.2.2.2.2.2.1 : ℝ) / 10000 + r.2.2.2.2.2.2.2.2 / 100000 * jcent jd) * cos (nutArg (jcent jd) r))
    (fun r : NutRow => rowM r.2.2.2.2.2.2.2.1 r.2.2.2.2.2.2.2.2)
    (by
      intro r hr
      have m1 : (rowM r.2.2.2.2.2.2.2.1 r.2.2.2.2.2.2.2.2 : ℝ) ≤ 100 := by exact_mod_cast eps_rows r hr
      obtain ⟨a, b⟩ := nutCoeff_near hf h hT (rowM_le r.2.2.2.2.2.2.2.1 r.2.2.2.2.2.2.2.2) m1
      exact nutTerm_near hf a m1 b (Real.abs_cos_le_one _) ((nutArgF_near hf hc (rows_ok r hr)).cos hl.cos))
    0 0 0 10.2 (by simp [Near]) (by
      have := eps_sum
      have := (Rat.cast_le (K := ℝ)).mpr this
      simp only [abs_zero, zero_add]; exact this) (by norm_num) (by
      have := eps_sum
      have := (Rat.cast_le (K := ℝ)).mpr this
      rw [nut_length]
      push_cast at this ⊢
      norm_num at this ⊢; linarith)
  have pa := nutEps_abs (jcent jd)
  change Near (dToRF fl (fl (Data.nutationTable.foldl _ 0 / 3600))) _ _
  rw [zero_add] at k
  have k2 := k.mono (e' := 1.3e-7) (by
      have := eps_sum
      have := (Rat.cast_le (K := ℝ)).mpr this
      rw [nut_length]
      push_cast at this ⊢
      norm_num at this ⊢; linarith)
  have q1 : |nutEps (jcent jd) / (3600 : ℚ)| ≤ 0.006 := by
    push_cast
    rw [abs_div, abs_of_pos (by norm_num : (0 : ℝ) < 3600), div_le_iff₀ (by norm_num)]
    norm_num at pa ⊢; linarith
  have k3 := (k2.div_const (k := 3600) (by norm_num)).rnd hf (e' := 3.7e-11) q1 (by rw [uuR, wwR]; norm_num)
  have k4 := (dToRF_near hf k3 q1).mono (e' := 7e-13) (by rw [uuR, wwR]; norm_num)
  push_cast at k4
  exact k4

end Verif

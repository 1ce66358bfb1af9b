import Verif.Model.FloatMisc
import Verif.Lemmas.FloatGeo
import Verif.Lemmas.FloatLunar
import Verif.Props.SunLow

/-!
# Rounding errors of the remaining functions
-/

namespace Verif
open Real

/-! ### Polynomials with given coefficients -/

/-- A coefficient: the float, the exact number, its bound and its error. -/
structure Coef where
  C : ℚ
  c : ℝ
  m : ℚ
  e : ℚ

/-- The float is within `e` of the number, which is at most `m`. -/
def Coef.Ok (q : Coef) : Prop := |q.c| ≤ q.m ∧ Near q.C q.c q.e

/-- Bound of a polynomial, from bounds and errors of its coefficients. -/
def cM (T : ℚ) : List (ℚ × ℚ) → ℚ
  | [] => 0
  | [q] => q.1
  | q :: qs => q.1 + cM T qs * T

/-- Bound of the rounding error. -/
def cE (T et : ℚ) : List (ℚ × ℚ) → ℚ
  | [] => 0
  | [q] => q.2
  | q :: qs =>
    let e1 := cE T et qs * (T + et) + cM T qs * et
    let e3 := q.2 + (e1 + uu * (cM T qs * T + e1 + ww))
    e3 + uu * (q.1 + cM T qs * T + e3 + ww)

theorem coef_near {fl : ℚ → ℚ} (hf : FloatLike fl) {TF : ℚ} {t : ℝ} {T et : ℚ} (ht : Near TF t et)
    (hT : |t| ≤ T) (qs : List Coef) (ok : ∀ q ∈ qs, q.Ok) :
    |polyR (qs.map Coef.c) t| ≤ cM T (qs.map fun q => (q.m, q.e)) ∧
      Near (horner fl TF (qs.map Coef.C)) (polyR (qs.map Coef.c) t) (cE T et (qs.map fun q => (q.m, q.e))) := by
  have T0 : (0 : ℝ) ≤ T := (abs_nonneg _).trans hT
  induction qs with
  | nil => simp [polyR, horner, cM, cE, Near]
  | cons q qs ih =>
    obtain ⟨d, c⟩ := ok q (by simp)
    cases qs with
    | nil =>
      simp only [polyR, horner, cM, cE, List.map_cons, List.map_nil]
      exact ⟨d, c⟩
    | cons p ps =>
      obtain ⟨i1, i2⟩ := ih fun r hr => ok r (List.mem_cons_of_mem _ hr)
      simp only [polyR, List.map_cons] at i1 i2 ⊢
      rw [horner_cons2, horner_cons2]
      rw [cM, cE]
      case x_1 => simp
      case x_1 => simp
      generalize horner (fun x : ℝ => x) t (p.c :: ps.map Coef.c) = y at *
      generalize horner fl TF (p.C :: ps.map Coef.C) = Y at *
      generalize (p.m, p.e) :: ps.map (fun q => (q.m, q.e)) = L at *
      have a1 : |y * t| ≤ cM T L * T := by
        rw [abs_mul]; exact mul_le_mul i1 hT (abs_nonneg _) ((abs_nonneg _).trans i1)
      have a2 : |q.c + y * t| ≤ q.m + cM T L * T := (abs_add_le _ _).trans (add_le_add d a1)
      constructor
      · push_cast; exact a2
      · have m := (c.add ((i2.mul ht i1 hT).fl hf a1)).fl hf a2
        push_cast
        exact m

/-- A literal. -/
def Coef.lit (fl : ℚ → ℚ) (q : ℚ) : Coef := ⟨fl q, q, |q|, uu * (|q| + ww)⟩

theorem Coef.lit_ok {fl : ℚ → ℚ} (hf : FloatLike fl) (q : ℚ) : (Coef.lit fl q).Ok := by
  refine ⟨?_, ?_⟩
  · simp [Coef.lit]
  · have := lit_near hf q
    simp only [Coef.lit]
    push_cast
    exact this

/-- Seconds of arc. -/
noncomputable def Coef.sec (fl : ℚ → ℚ) (s : ℚ) : Coef :=
  ⟨dToRF fl (dmsToD1 fl 0 0 (fl s)), dToR (dmsR 0 0 s), |s| * 4.85e-6, uu * (|s| / 10000 + 3 * ww)⟩

theorem Coef.sec_ok {fl : ℚ → ℚ} (hf : FloatLike fl) {s : ℚ} (hs : 0 ≤ s ∨ s ≤ -1 / 4096) : (Coef.sec fl s).Ok := by
  refine ⟨?_, ?_⟩
  · simp only [Coef.sec]
    refine (dToR_abs_le _).trans ?_
    rw [dmsR_sec, abs_div, abs_of_pos (by norm_num : (0 : ℝ) < 3600)]
    push_cast
    have := abs_nonneg (s : ℝ)
    norm_num
    linarith
  · have := arcsecF_near hf hs
    simp only [Coef.sec]
    push_cast
    exact this

/-! ### The obliquity -/

/-- `dms_to_d(23, 26, 21.448)`. -/
theorem eps_near {fl : ℚ → ℚ} (hf : FloatLike fl) :
    Near (dToRF fl (dmsToD1 fl 23 26 (fl 21.448))) (dToR (dmsR 23 26 21.448)) (4e-16 : ℚ) := by
  have a0 : 0 ≤ fl 21.448 := hf.fl_nonneg (by norm_num)
  have n1 : Near (fl (26 / 60)) (26 / 60) 1e-16 := by
    have := (near_self (26 / 60)).rnd hf (M := 0.44) (e' := 1e-16) (by push_cast; rw [abs_of_pos] <;> norm_num)
      (by rw [uuR, wwR]; norm_num)
    push_cast at this
    exact this
  have n2 : Near (fl (23 + fl (26 / 60))) (23 + 26 / 60) 2.8e-15 := by
    have h := (near_self 23).add n1
    push_cast at h
    exact h.rnd hf (M := 23.5) (by rw [abs_of_pos] <;> norm_num) (by rw [uuR, wwR]; norm_num)
  have n3 : Near (fl 21.448) 21.448 2.5e-15 := by
    have := (near_self 21.448).rnd hf (M := 21.448) (e' := 2.5e-15) (by push_cast; rw [abs_of_pos] <;> norm_num)
      (by rw [uuR, wwR]; norm_num)
    push_cast at this
    exact this
  have n4 : Near (fl (fl 21.448 / 3600)) (21.448 / 3600) 2e-18 := by
    have h := n3.div_const (k := 3600) (by norm_num)
    push_cast at h
    exact h.rnd hf (M := 0.006) (by rw [abs_of_pos] <;> norm_num) (by rw [uuR, wwR]; norm_num)
  have n5 : Near (fl (fl (23 + fl (26 / 60)) + fl (fl 21.448 / 3600))) (23 + 26 / 60 + 21.448 / 3600) 5.5e-15 :=
    (n2.add n4).rnd hf (M := 23.5) (by rw [abs_of_pos] <;> norm_num) (by rw [uuR, wwR]; norm_num)
  have e1 : dmsToD1 fl 23 26 (fl 21.448) = fl (fl (23 + fl (26 / 60)) + fl (fl 21.448 / 3600)) := by
    unfold dmsToD1
    rw [if_neg (by push Not; exact ⟨by norm_num, by norm_num, a0⟩), abs_of_nonneg a0,
      abs_of_pos (by norm_num : (0 : ℚ) < 23), abs_of_pos (by norm_num : (0 : ℚ) < 26)]
  have e2 : dmsR 23 26 21.448 = 23 + 26 / 60 + 21.448 / 3600 := by
    rw [dmsR_eps]; norm_num
  rw [e1, e2]
  refine (dToRF_near hf n5 (M := 23.5) (by rw [abs_of_pos] <;> norm_num)).mono ?_
  rw [uuR, wwR]; push_cast; norm_num

/-- The constant of both formulas. -/
noncomputable def Coef.eps (fl : ℚ → ℚ) : Coef :=
  ⟨dToRF fl (dmsToD1 fl 23 26 (fl 21.448)), dToR (dmsR 23 26 21.448), 0.4094, 4e-16⟩

theorem Coef.eps_ok {fl : ℚ → ℚ} (hf : FloatLike fl) : (Coef.eps fl).Ok := by
  refine ⟨?_, eps_near hf⟩
  simp only [Coef.eps]
  refine (dToR_abs_le _).trans ?_
  rw [dmsR_eps, abs_of_pos (by norm_num)]
  push_cast; norm_num

theorem obliquityF_near {fl : ℚ → ℚ} (hf : FloatLike fl) {jd : ℚ} (h : |jcent jd| ≤ 60) :
    Near (obliquityF fl jd) (obliquity jd) 1e-15 := by
  have k := (coef_near hf (T := 60) (jcentF_near hf h) (by push_cast; exact h)
    [Coef.eps fl, Coef.sec fl (-46.8150), Coef.sec fl (-0.00059), Coef.sec fl 0.001813] (by
      intro q hq
      simp only [List.mem_cons, List.not_mem_nil, or_false] at hq
      rcases hq with rfl | rfl | rfl | rfl
      · exact Coef.eps_ok hf
      · exact Coef.sec_ok hf (by norm_num)
      · exact Coef.sec_ok hf (by norm_num)
      · exact Coef.sec_ok hf (by norm_num))).2
  have e1 : [Coef.eps fl, Coef.sec fl (-46.8150), Coef.sec fl (-0.00059), Coef.sec fl 0.001813].map Coef.C = el0F fl := rfl
  have e2 : [Coef.eps fl, Coef.sec fl (-46.8150), Coef.sec fl (-0.00059), Coef.sec fl 0.001813].map Coef.c = el0 := by
    simp only [List.map, Coef.eps, Coef.sec, el0]
    push_cast; rfl
  have e3 : [Coef.eps fl, Coef.sec fl (-46.8150), Coef.sec fl (-0.00059), Coef.sec fl 0.001813].map
      (fun q => (q.m, q.e)) = (0.4094, 4e-16) :: [-46.8150, -0.00059, 0.001813].map
        (fun s : ℚ => (|s| * 4.85e-6, uu * (|s| / 10000 + 3 * ww))) := rfl
  rw [e1, e2, e3] at k
  have b : cE 60 (126 * uu) ((0.4094, 4e-16) :: [-46.8150, -0.00059, 0.001813].map
        (fun s : ℚ => (|s| * 4.85e-6, uu * (|s| / 10000 + 3 * ww)))) ≤ 1e-15 := by decide +kernel
  have b' := (Rat.cast_le (K := ℝ)).mpr b
  push_cast at b'
  exact k.mono b'

theorem jcent100 {fl : ℚ → ℚ} (hf : FloatLike fl) {jd : ℚ} (h : |jcent jd| ≤ 100) :
    Near (fl (jcentF fl jd / 100)) (jcent jd / 100) (4 * uu : ℚ) := by
  have a0 : |(jd : ℝ) - 2451545| ≤ 100 * 36525 := by
    unfold jcent at h
    rw [abs_div, abs_of_pos (by norm_num : (0 : ℝ) < 36525), div_le_iff₀ (by norm_num)] at h
    exact h
  have n0 : Near (jd - 2451545) ((jd : ℝ) - 2451545) 0 := by simp [Near]
  have n1 := (n0.fl hf a0).div_const (k := 36525) (by norm_num)
  have n2 := n1.fl hf (M := 100) (by push_cast; exact h)
  have n3 := (n2.div_const (k := 100) (by norm_num)).rnd hf (M := 1) (e' := 4 * uu) (by
    push_cast
    change |jcent jd / 100| ≤ 1
    rw [abs_div, abs_of_pos (by norm_num : (0 : ℝ) < 100), div_le_one (by norm_num)]; exact h) (by
    rw [uuR, wwR]; push_cast; norm_num)
  unfold jcentF jcent
  push_cast at n3 ⊢
  exact n3

theorem obliquityHiF_near {fl : ℚ → ℚ} (hf : FloatLike fl) {jd : ℚ} (h : |jcent jd| ≤ 100) :
    Near (obliquityHiF fl jd) (obliquityHi jd) 1e-15 := by
  have k := (coef_near hf (T := 1) (jcent100 hf h) (by
      rw [abs_div, abs_of_pos (by norm_num : (0 : ℝ) < 100)]
      push_cast
      rw [div_le_one (by norm_num)]; exact h)
    (Coef.eps fl :: [-4680.93, -1.55, 1999.25, -51.38, -249.67, -39.05, 7.12, 27.87, 5.79, 2.45].map (Coef.sec fl)) (by
      intro q hq
      rw [List.mem_cons] at hq
      rcases hq with rfl | hq
      · exact Coef.eps_ok hf
      · obtain ⟨s, hs, rfl⟩ := List.mem_map.mp hq
        refine Coef.sec_ok hf ?_
        have : ∀ s ∈ [(-4680.93 : ℚ), -1.55, 1999.25, -51.38, -249.67, -39.05, 7.12, 27.87, 5.79, 2.45],
          0 ≤ s ∨ s ≤ -1 / 4096 := by decide +kernel
        exact this s hs)).2
  have e1 : (Coef.eps fl :: [-4680.93, -1.55, 1999.25, -51.38, -249.67, -39.05, 7.12, 27.87, 5.79, 2.45].map
      (Coef.sec fl)).map Coef.C = el1F fl := rfl
  have e2 : (Coef.eps fl :: [-4680.93, -1.55, 1999.25, -51.38, -249.67, -39.05, 7.12, 27.87, 5.79, 2.45].map
      (Coef.sec fl)).map Coef.c = el1 := by
    simp only [List.map, Coef.eps, Coef.sec, el1]
    push_cast; rfl
  have e3 : (Coef.eps fl :: [-4680.93, -1.55, 1999.25, -51.38, -249.67, -39.05, 7.12, 27.87, 5.79, 2.45].map
      (Coef.sec fl)).map (fun q => (q.m, q.e)) = (0.4094, 4e-16) ::
        [-4680.93, -1.55, 1999.25, -51.38, -249.67, -39.05, 7.12, 27.87, 5.79, 2.45].map
        (fun s : ℚ => (|s| * 4.85e-6, uu * (|s| / 10000 + 3 * ww))) := rfl
  rw [e1, e2, e3] at k
  have b : cE 1 (4 * uu) ((0.4094, 4e-16) ::
        [-4680.93, -1.55, 1999.25, -51.38, -249.67, -39.05, 7.12, 27.87, 5.79, 2.45].map
        (fun s : ℚ => (|s| * 4.85e-6, uu * (|s| / 10000 + 3 * ww)))) ≤ 1e-15 := by decide +kernel
  have b' := (Rat.cast_le (K := ℝ)).mpr b
  push_cast at b'
  exact k.mono b'

/-! ### Mean longitudes of the Sun and of its perigee -/

theorem jcent10 {fl : ℚ → ℚ} (hf : FloatLike fl) {jd : ℚ} (h : |jcent jd| ≤ 60) :
    Near (fl (jcentF fl jd / 10)) (jcent jd / 10) (19 * uu : ℚ) := by
  have n3 := ((jcentF_near hf h).div_const (k := 10) (by norm_num)).rnd hf (M := 6) (e' := 19 * uu) (by
    push_cast
    rw [abs_div, abs_of_pos (by norm_num : (0 : ℝ) < 10), div_le_iff₀ (by norm_num)]
    norm_num; exact h) (by
    push_cast; rw [uuR, wwR]; norm_num)
  push_cast at n3 ⊢
  exact n3

theorem sunMeanLongitudeF_near {fl : ℚ → ℚ} (hf : FloatLike fl) {jd : ℚ} (h : |jcent jd| ≤ 60) :
    NearA (sunMeanLongitudeF fl jd) (sunMeanLongitude jd) 6e-11 := by
  obtain ⟨a, n⟩ := horner_near hf (T := 6) (jcent10 hf h) (by
    rw [abs_div, abs_of_pos (by norm_num : (0 : ℝ) < 10), div_le_iff₀ (by norm_num)]
    push_cast; norm_num; exact h) degSun
  have o1 : ((hM 6 degSun : ℚ) : ℝ) ≤ 38000 := by
    have : hM 6 degSun ≤ 38000 := by decide +kernel
    exact_mod_cast this
  have o2 : ((hE 6 (19 * uu) degSun : ℚ) : ℝ) ≤ 4.1e-11 := by
    have : hE 6 (19 * uu) degSun ≤ 4.1e-11 := by decide +kernel
    have := (Rat.cast_le (K := ℝ)).mpr this; push_cast at this; exact this
  have n1 := ((n.mono o2).add piF_near).rnd hf (M := 38004) (e' := 4.9e-11)
    ((abs_add_le _ _).trans (by have := pi_abs; have := a.trans o1; norm_num at *; linarith))
    (by rw [uuR, wwR]; norm_num)
  obtain ⟨k, m⟩ := modpi2F_nearA hf n1 (by norm_num) (M := 38004)
    ((abs_add_le _ _).trans (by have := pi_abs; have := a.trans o1; norm_num at *; linarith))
  have e1 : (degSun.map fun q : ℚ => dToR (q : ℝ)) = [dToR 100.4664567, dToR 360007.6982779, dToR 0.03032028,
      dToR (1 / 49931), dToR (-1 / 15300), dToR (-1 / 2000000)] := by
    unfold degSun; simp only [List.map]; push_cast; rfl
  rw [e1] at m
  obtain ⟨j, hj⟩ := (modpi2_spec (polyR [dToR 100.4664567, dToR 360007.6982779, dToR 0.03032028,
      dToR (1 / 49931), dToR (-1 / 15300), dToR (-1 / 2000000)] (jcent jd / 10) + π)).2.2
  refine ⟨k - j, ?_⟩
  have e2 : sunMeanLongitude jd + ((k - j : ℤ) : ℝ) * (2 * π) = polyR [dToR 100.4664567, dToR 360007.6982779, dToR 0.03032028,
      dToR (1 / 49931), dToR (-1 / 15300), dToR (-1 / 2000000)] (jcent jd / 10) + π + k * (2 * π) := by
    have : sunMeanLongitude jd = modpi2 (polyR [dToR 100.4664567, dToR 360007.6982779, dToR 0.03032028,
      dToR (1 / 49931), dToR (-1 / 15300), dToR (-1 / 2000000)] (jcent jd / 10) + π) := rfl
    rw [this, hj]; push_cast; ring
  rw [e2]
  exact m.mono (by norm_num)

theorem sunMeanLongitudePerigeeF_near {fl : ℚ → ℚ} (hf : FloatLike fl) {jd : ℚ} (h : |jcent jd| ≤ 60) :
    NearA (sunMeanLongitudePerigeeF fl jd) (sunMeanLongitudePerigee jd) 1e-14 := by
  have n0 : Near (fl (jcentF fl jd + 1)) (jcent jd + 1) (200 * uu : ℚ) := by
    have := ((jcentF_near hf h).add (near_self 1)).rnd hf (M := 61) (e' := 200 * uu) (by
      push_cast
      refine (abs_add_le _ _).trans ?_
      rw [abs_one]; linarith) (by push_cast; rw [uuR, wwR]; norm_num)
    push_cast at this ⊢
    exact this
  have i1 : fl 1012395 = 1012395 := hf.fix _ ⟨1012395, 0, by norm_num, by norm_num, by norm_num⟩
  obtain ⟨a, n⟩ := coef_near hf (T := 61) n0 (by
    refine (abs_add_le _ _).trans ?_
    rw [abs_one]; push_cast; linarith) ([1012395, 6189.03, 1.63, 0.012].map (Coef.lit fl)) (by
      intro q hq
      obtain ⟨s, -, rfl⟩ := List.mem_map.mp hq
      exact Coef.lit_ok hf s)
  have e1 : ([1012395, 6189.03, 1.63, 0.012].map (Coef.lit fl)).map Coef.C =
      [1012395, fl 6189.03, fl 1.63, fl 0.012] := by
    simp only [List.map, Coef.lit, i1]
  have e2 : ([1012395, 6189.03, 1.63, 0.012].map (Coef.lit fl)).map Coef.c = [1012395, 6189.03, 1.63, 0.012] := by
    simp only [List.map, Coef.lit]; push_cast; rfl
  have e3 : ([1012395, 6189.03, 1.63, 0.012].map (Coef.lit fl)).map (fun q => (q.m, q.e)) =
      [1012395, 6189.03, 1.63, 0.012].map fun q : ℚ => (|q|, uu * (|q| + ww)) := rfl
  rw [e1, e2, e3] at n
  rw [e2, e3] at a
  have o1 : cM 61 ([1012395, 6189.03, 1.63, 0.012].map fun q : ℚ => (|q|, uu * (|q| + ww))) ≤ 1400000 := by
    decide +kernel
  have o2 : cE 61 (200 * uu) ([1012395, 6189.03, 1.63, 0.012].map fun q : ℚ => (|q|, uu * (|q| + ww))) ≤ 8e-10 := by
    decide +kernel
  have o1 := (Rat.cast_le (K := ℝ)).mpr o1
  have o2 := (Rat.cast_le (K := ℝ)).mpr o2
  push_cast at o1 o2
  have a1 := a.trans o1
  have n1 := n.mono o2
  have m1 : |polyR [1012395, 6189.03, 1.63, 0.012] (jcent jd + 1) / 3600| ≤ 389 := by
    rw [abs_div, abs_of_pos (by norm_num : (0 : ℝ) < 3600), div_le_iff₀ (by norm_num)]
    linarith
  have n2 := (n1.div_const (k := 3600) (by norm_num)).rnd hf (M := 389) (e' := 2.7e-13) (by push_cast; exact m1) (by
    rw [uuR, wwR]; push_cast; norm_num)
  push_cast at n2
  have n3 := dToRF_near hf n2 m1
  have m3 : |dToR (polyR [1012395, 6189.03, 1.63, 0.012] (jcent jd + 1) / 3600)| ≤ 7 := by
    refine (dToR_abs_le _).trans ?_
    norm_num at m1 ⊢; linarith
  obtain ⟨k, m⟩ := modpi2F_nearA hf n3 (by rw [uuR, wwR]; norm_num) m3
  obtain ⟨j, hj⟩ := (modpi2_spec (dToR (polyR [1012395, 6189.03, 1.63, 0.012] (jcent jd + 1) / 3600))).2.2
  refine ⟨k - j, ?_⟩
  have e4 : sunMeanLongitudePerigee jd + ((k - j : ℤ) : ℝ) * (2 * π) =
      dToR (polyR [1012395, 6189.03, 1.63, 0.012] (jcent jd + 1) / 3600) + k * (2 * π) := by
    have : sunMeanLongitudePerigee jd = modpi2 (dToR (polyR [1012395, 6189.03, 1.63, 0.012] (jcent jd + 1) / 3600)) := rfl
    rw [this, hj]; push_cast; ring
  rw [e4]
  refine m.mono ?_
  rw [uuR, wwR]; norm_num

end Verif

import Verif.Lemmas.FloatRiseSet
import Verif.Props.RiseSet
import Verif.Props.FloatTransit
import Verif.Props.FloatCoord

/-!
# C85: `riseset._riseset` in binary64
-/

namespace Verif
open Real

theorem Slow.mono {s c s' c' : ℝ} {u : ℝ × ℝ × ℝ} (h : Slow s c u) (hs : s ≤ s') (hc : c ≤ c') : Slow s' c' u :=
  ⟨h.1.trans hs, h.2.1.trans hs, h.2.2.trans hc⟩

theorem rsReduceF_any {fl : ℚ → ℚ} (hf : FloatLike fl) (x : ℚ) :
    (rsReduceF fl x = .error (.Error "riseset" "m is out of range") ∧ (x < -1 ∨ 2 < x)) ∨
    ∃ m, rsReduceF fl x = .ok m ∧ 0 ≤ m ∧ m ≤ 1 ∧ ∃ j : ℤ, |(m : ℝ) - (x + j)| ≤ 1.12e-16 := by
  rcases le_or_gt x 2 with hx | hx
  · rcases rsReduceF_cases hf hx with ⟨e, h⟩ | ⟨m, e, m0, m1, -, hj⟩
    · exact .inl ⟨e, .inl h⟩
    · exact .inr ⟨m, e, m0, m1, hj⟩
  · unfold rsReduceF
    simp only
    rw [if_neg (by linarith : ¬ x < 0), if_pos (by linarith : x > 1)]
    by_cases c : 0 ≤ fl (x - 1) ∧ fl (x - 1) ≤ 1
    · right
      refine ⟨fl (x - 1), if_neg (not_not.mpr c), c.1, c.2, -1, ?_⟩
      have r := hf.errR (x - 1)
      rw [uuR, wwR] at r
      push_cast at r
      have c2 : (fl (x - 1) : ℝ) ≤ 1 := by exact_mod_cast c.2
      have hx' : (2 : ℝ) < x := by exact_mod_cast hx
      rw [abs_of_pos (by linarith : (0 : ℝ) < x - 1)] at r
      have r' := abs_le.mp r
      push_cast
      rw [← sub_eq_add_neg]
      norm_num at r r' ⊢
      linarith
    · left; exact ⟨if_pos c, .inr hx⟩

/-- The hour angle of the first estimate as computed. -/
theorem acosF_near {fl : ℚ → ℚ} (hf : FloatLike fl) {lib : RiseLib} {N : ℕ} (hl : lib.Good fl N) {phi d1 h0 : ℚ}
    (hA : 0.44 ≤ cos (phi : ℝ) * cos (d1 : ℝ))
    (hq : |(sin (h0 : ℝ) - sin (phi : ℝ) * sin (d1 : ℝ)) / (cos (phi : ℝ) * cos (d1 : ℝ))| ≤ 0.92) :
    fl (lib.cosF phi * lib.cosF d1) ≠ 0 ∧
    ¬ fl (fl (lib.sinF h0 - fl (lib.sinF phi * lib.sinF d1)) / fl (lib.cosF phi * lib.cosF d1)) < -1 ∧
    ¬ fl (fl (lib.sinF h0 - fl (lib.sinF phi * lib.sinF d1)) / fl (lib.cosF phi * lib.cosF d1)) > 1 ∧
    ∃ W, lib.acosF (fl (fl (lib.sinF h0 - fl (lib.sinF phi * lib.sinF d1)) / fl (lib.cosF phi * lib.cosF d1))) = some W ∧
      Near W (arccos ((sin (h0 : ℝ) - sin (phi : ℝ) * sin (d1 : ℝ)) / (cos (phi : ℝ) * cos (d1 : ℝ)))) 1e-13 := by
  have pi4 := Real.pi_lt_d4
  norm_num at pi4
  obtain ⟨p1, p2⟩ := prod1_near hf (hl.trig.num.sin phi) (hl.trig.num.sin d1) (abs_sin_le_one _) (abs_sin_le_one _)
  obtain ⟨c1, c2⟩ := prod1_near hf (hl.trig.num.cos phi) (hl.trig.num.cos d1) (abs_cos_le_one _) (abs_cos_le_one _)
  have s1 : Near (lib.sinF h0) (sin (h0 : ℝ)) (1 / 2 ^ 50) := hl.trig.num.sin h0
  have n1 := (s1.sub p2).rnd hf ((abs_sub _ _).trans (add_le_add (abs_sin_le_one _) p1)) (e' := 3.1e-15)
    (by rw [uuR, wwR]; norm_num)
  generalize fl (lib.sinF h0 - fl (lib.sinF phi * lib.sinF d1)) = num at *
  generalize fl (lib.cosF phi * lib.cosF d1) = den at *
  have dl : 0.43 ≤ (den : ℝ) := by
    have := (abs_le.mp c2).1
    norm_num at this hA ⊢
    linarith
  have A0 : 0 < cos (phi : ℝ) * cos (d1 : ℝ) := lt_of_lt_of_le (by norm_num) hA
  have n2 := (n1.div c2 (by norm_num) dl A0 hq).rnd hf hq (e' := 1.2e-14) (by rw [uuR, wwR]; norm_num)
  generalize (sin (h0 : ℝ) - sin (phi : ℝ) * sin (d1 : ℝ)) / (cos (phi : ℝ) * cos (d1 : ℝ)) = q at *
  generalize fl (num / den) = Q at *
  have bQ := n2.abs hq
  have bQ' : |Q| ≤ 1 := by
    have : |(Q : ℝ)| ≤ 1 := bQ.trans (by norm_num)
    exact_mod_cast this
  refine ⟨?_, not_lt.mpr (abs_le.mp bQ').1, not_lt.mpr (abs_le.mp bQ').2, ?_⟩
  · intro h
    rw [h] at dl
    norm_num at dl
  · obtain ⟨W, e, hW⟩ := hl.acos Q bQ'
    refine ⟨W, e, ?_⟩
    have an := arcsin_near (Z := (Q : ℝ)) (z := q) (bQ.trans (by norm_num)) (hq.trans (by norm_num))
    have cq : 0.39 ≤ cos (arcsin q) := by
      rw [Real.cos_arcsin]
      refine Real.le_sqrt_of_sq_le ?_
      have : q ^ 2 ≤ 0.92 ^ 2 := by rw [← sq_abs]; exact pow_le_pow_left₀ (abs_nonneg _) hq 2
      norm_num at this ⊢
      linarith
    have e1 : 0.39 * |arcsin (Q : ℝ) - arcsin q| ≤ cos (arcsin q) * |arcsin (Q : ℝ) - arcsin q| :=
      mul_le_mul_of_nonneg_right cq (abs_nonneg _)
    have e2 : π * |(Q : ℝ) - q| ≤ 3.1416 * 1.2e-14 := mul_le_mul (by norm_num; linarith) n2 (abs_nonneg _) (by norm_num)
    unfold Near
    have e3 : (W : ℝ) - arccos q = (W - arccos Q) - (arcsin Q - arcsin q) := by
      rw [Real.arccos, Real.arccos]; ring
    rw [e3]
    refine (abs_sub _ _).trans ?_
    norm_num at e1 e2 hW ⊢
    linarith

/-- C85: if an object moving not faster than the Sun passes the altitude `h0` at the time `z` of the day,
rising (setting) with a vertical speed of at least 0.45 of the equatorial one, then the code as computed with
floats for mode "rise" ("set") either refuses the first estimate or returns this time, up to about half of
the precision.  The estimate can be refused only for certain sums of right ascension and longitude.  `dT` is
the difference between dynamical and universal time in days: any number within 1e-9 of what the code
computes. -/
theorem riseset_float_found {fl : ℚ → ℚ} (hf : FloatLike fl) {lib : RiseLib} {N : ℕ} (hl : lib.Good fl N) {jd : ℚ}
    {y d : ℚ × ℚ × ℚ} {u : ℝ × ℝ × ℝ} {lon phi h0 delta : ℚ} {dT z : ℝ} {mode : RsMode}
    (I : RiseInput jd (castT y) u (castT d) phi h0) (hlon : |(lon : ℝ)| ≤ π) (hdec : |(d.2.1 : ℝ)| ≤ 2)
    (hd : 1e-7 ≤ (delta : ℝ)) (hT : |(deltaTDaysF fl jd : ℝ) - dT| ≤ 1e-9)
    (z0 : 0.05 ≤ z) (z1 : z ≤ 0.95) (hn : |z + dT| ≤ 0.97)
    (ev : altitude phi (hourAngle jd lon dT u z) (parabola (castT d) (z + dT)) = h0)
    (st : 0.45 ≤ |cos (parabola (castT d) (z + dT)) * cos (phi : ℝ) * sin (hourAngle jd lon dT u z)|)
    (hm : mode = .rise ∧ sin (hourAngle jd lon dT u z) < 0 ∨ mode = .set ∧ 0 < sin (hourAngle jd lon dT u z)) :
    (risesetF fl lib jd y d h0 delta mode lon phi phi = .error (.Error "riseset" "m is out of range") ∧
      (mode = .rise ∧ (y.2.1 : ℝ) + lon ≤ π + 1e-12 ∨
       mode = .set ∧ ((y.2.1 : ℝ) + lon ≤ 1e-12 ∨ 3 * π - 1e-12 ≤ y.2.1 + lon))) ∨
    ∃ t, risesetF fl lib jd y d h0 delta mode lon phi phi = .ok (some t) ∧
      |(t : ℝ) - (jd + z)| ≤ 0.52 * delta + 2.1e-8 := by
  have hp := Real.pi_gt_d6
  have hp' := Real.pi_lt_d6
  have hpi := pi_pos
  have hk := rsK1_bounds
  have hk2 := rsK1_eq
  norm_num at hp hp' hk z0 z1
  have rg := siderealF_range hf jd
  have nT := siderealF_near hf I.era
  unfold risesetF
  simp only
  generalize siderealF fl jd = TH at *
  generalize deltaTDaysF fl jd = dTF at *
  have nz : |z + dT| ≤ 1.1 := hn.trans (by norm_num)
  have pd := parabola_near I.slowd nz
  have pu := parabola_near I.slow nz
  obtain ⟨hA, qr, hw⟩ := estimate_near I.lat I.dec ev (by rw [abs_sub_comm]; exact pd.trans (by norm_num)) st
  have S : RiseStateF fl jd y d u lon phi h0 TH dTF dT z :=
    ⟨⟨I.red, I.slow.mono (by norm_num) (by norm_num), I.slowd.mono (by norm_num) (by norm_num), hdec, hlon, nT, rg⟩,
      I.era, I.slow, I.slowd, ev, I.alt, st, by rw [abs_le]; norm_num; constructor <;> linarith, hn, hT⟩
  have cd := codeH_diff (lon := (lon : ℝ)) (m := z) I.era I.slow
    ((by rw [abs_le]; norm_num; constructor <;> linarith : |z| ≤ 1.1).trans (by norm_num)) nz nz
  rw [sub_self, mul_zero, sub_zero, abs_zero, mul_zero, zero_add] at cd
  have hd1 : (castT d).2.1 = (d.2.1 : ℝ) := rfl
  rw [hd1] at hA qr hw
  obtain ⟨a1, a2, a3, W, eW, nW⟩ := acosF_near hf hl hA qr
  rw [if_neg a1, if_neg a2, if_neg a3, eW]
  simp only
  have w0 := arccos_nonneg ((sin (h0 : ℝ) - sin (phi : ℝ) * sin (d.2.1 : ℝ)) / (cos (phi : ℝ) * cos (d.2.1 : ℝ)))
  have w1 := arccos_le_pi ((sin (h0 : ℝ) - sin (phi : ℝ) * sin (d.2.1 : ℝ)) / (cos (phi : ℝ) * cos (d.2.1 : ℝ)))
  generalize arccos ((sin (h0 : ℝ) - sin (phi : ℝ) * sin (d.2.1 : ℝ)) / (cos (phi : ℝ) * cos (d.2.1 : ℝ))) = w at *
  have x0 := arccos_nonneg (cos (hourAngle jd lon dT u z))
  -- the estimate
  obtain ⟨nq, bq⟩ := quotient_near hf (a := y.2.1) (lon := lon) I.red.2.1.1 I.red.2.1.2.1 hlon rg
  have bw : |w / (2 * π)| ≤ 0.5 := by
    rw [abs_div, abs_of_nonneg w0, abs_of_pos (by positivity : 0 < 2 * π), div_le_iff₀ (by positivity)]
    norm_num; linarith
  have nw : Near (fl (W / pi2F)) (w / (2 * π)) 1.7e-14 :=
    (nW.div pi2F_near (m := 6.28) (by norm_num) (by unfold pi2F; norm_num) (by positivity) bw).rnd hf bw
      (by rw [uuR, wwR]; norm_num)
  obtain ⟨sg, hsg, hH, hx, hsgm⟩ : ∃ sg : ℝ, (sg = 1 ∨ sg = -1) ∧
      Congr (2 * π) (hourAngle jd lon dT u z) (sg * arccos (cos (hourAngle jd lon dT u z))) ∧
      Near (rsEstimateF fl mode (fl (fl (fl (y.2.1 + lon) - TH) / pi2F)) W)
        ((y.2.1 + lon - TH + sg * w) / (2 * π)) 2e-14 ∧ (mode = .rise ∧ sg = -1 ∨ mode = .set ∧ sg = 1) := by
    rcases hm with ⟨rfl, hs⟩ | ⟨rfl, hs⟩
    · refine ⟨-1, .inr rfl, ?_, ?_, .inl ⟨rfl, rfl⟩⟩
      · have := hour_angle_east hs
        rwa [neg_one_mul]
      · rw [show ((y.2.1 : ℝ) + lon - TH + -1 * w) / (2 * π) = (y.2.1 + lon - TH) / (2 * π) - w / (2 * π) by ring]
        exact (nq.sub nw).rnd hf ((abs_sub _ _).trans (add_le_add bq bw)) (by rw [uuR, wwR]; norm_num)
    · refine ⟨1, .inl rfl, ?_, ?_, .inr ⟨rfl, rfl⟩⟩
      · have := hour_angle_west hs
        rwa [one_mul]
      · rw [show ((y.2.1 : ℝ) + lon - TH + 1 * w) / (2 * π) = (y.2.1 + lon - TH) / (2 * π) + w / (2 * π) by ring]
        exact (nq.add nw).rnd hf ((abs_add_le _ _).trans (add_le_add bq bw)) (by rw [uuR, wwR]; norm_num)
  generalize rsEstimateF fl mode (fl (fl (fl (y.2.1 + lon) - TH) / pi2F)) W = X at *
  have eq : (y.2.1 + lon - TH + sg * w) = (y.2.1 + lon - TH + sg * w) / (2 * π) * (2 * π) := by field_simp
  generalize hr0 : ((y.2.1 : ℝ) + lon - TH + sg * w) / (2 * π) = r at *
  have t0 : (0 : ℝ) ≤ TH := by exact_mod_cast rg.1
  have t1 : (TH : ℝ) ≤ 2 * π + 2.5e-16 := by
    have h1 : (TH : ℝ) ≤ pi2F := by exact_mod_cast rg.2
    have h2 := (abs_le.mp pi2F_near).2
    linarith
  rcases rsReduceF_any hf X with ⟨e, h⟩ | ⟨mu, e, m0, m1, j, hj⟩
  · left
    rw [e]
    refine ⟨rfl, ?_⟩
    obtain ⟨hx1, hx2⟩ := abs_le.mp hx
    have lowc : X < -1 → (y.2.1 : ℝ) + lon - TH + sg * w ≤ -(2 * π) + 5e-13 := by
      intro h
      have h' : (X : ℝ) < -1 := by exact_mod_cast h
      rw [eq]
      have : r * (2 * π) ≤ (-1 + 2e-14) * (2 * π) := mul_le_mul_of_nonneg_right (by linarith) (by positivity)
      norm_num at this ⊢
      linarith
    have hic : 2 < X → 2 * (2 * π) - 5e-13 ≤ (y.2.1 : ℝ) + lon - TH + sg * w := by
      intro h
      have h' : (2 : ℝ) < X := by exact_mod_cast h
      rw [eq]
      have : (2 - 2e-14) * (2 * π) ≤ r * (2 * π) := mul_le_mul_of_nonneg_right (by linarith) (by positivity)
      norm_num at this ⊢
      linarith
    have yy := I.red.2.1.2.1
    have yy' : (castT y).2.1 = (y.2.1 : ℝ) := rfl
    rw [yy'] at yy
    have ll := abs_le.mp hlon
    rcases hsgm with ⟨rfl, rfl⟩ | ⟨rfl, rfl⟩
    · left
      refine ⟨rfl, ?_⟩
      rcases h with h | h
      · have := lowc h
        norm_num at this t1 ⊢
        linarith
      · have := hic h
        norm_num at this ⊢
        linarith
    · right
      refine ⟨rfl, ?_⟩
      rcases h with h | h
      · left
        have := lowc h
        norm_num at this t1 ⊢
        linarith
      · right
        have := hic h
        norm_num at this ⊢
        linarith
  · right
    rw [e]
    simp only
    have m0' : (0 : ℝ) ≤ mu := by exact_mod_cast m0
    have m1' : (mu : ℝ) ≤ 1 := by exact_mod_cast m1
    -- the estimate is near the event
    obtain ⟨a, ea⟩ := nT
    obtain ⟨b, eb⟩ := I.red.2.1.2.2
    obtain ⟨c, ec⟩ := hH
    have yy' : (castT y).2.1 = (y.2.1 : ℝ) := rfl
    rw [yy'] at eb
    generalize arccos (cos (hourAngle jd lon dT u z)) = x at *
    obtain ⟨L, hL⟩ : ∃ L : ℤ, L = j + b - a - c := ⟨_, rfl⟩
    have n1 : |2 * π * mu - (y.2.1 + lon - TH + sg * w + 2 * π * j)| ≤ 2e-13 := by
      have e1 : 2 * π * mu - (y.2.1 + lon - TH + sg * w + 2 * π * j) = 2 * π * ((mu - (X + j)) + (X - r)) := by
        rw [eq]; ring
      rw [e1, abs_mul, abs_of_pos (by positivity)]
      have b1 : |((mu : ℝ) - (X + j)) + (X - r)| ≤ 2.1e-14 := by
        unfold Near at hx
        refine (abs_add_le _ _).trans ((add_le_add hj hx).trans (by norm_num))
      refine (mul_le_mul (by linarith : 2 * π ≤ 6.2833) b1 (abs_nonneg _) (by norm_num)).trans (by norm_num)
    have n2 : |(TH : ℝ) - (gmstDegrees jd * (π / 180) + a * (2 * π))| ≤ 7.5e-9 := ea
    have main : 2 * π * (mu - z) = -(parabola u (z + dT) - u.2.1) + (rsK1 - 2 * π) * z + sg * (w - x) -
        (codeH jd lon dT u z - hourAngle jd lon dT u z) + 2 * π * L +
        ((2 * π * mu - (y.2.1 + lon - TH + sg * w + 2 * π * j)) -
          (TH - (gmstDegrees jd * (π / 180) + a * (2 * π)))) := by
      have ecd : codeH jd lon dT u z = gmstDegrees jd * (π / 180) + rsK1 * z - lon - parabola u (z + dT) := rfl
      rw [hL]
      push_cast
      linear_combination eb + ecd - ec
    have b1 : |sg * (w - x)| ≤ 0.064 := by
      rcases hsg with rfl | rfl
      · rw [one_mul]; exact hw
      · rw [neg_one_mul, abs_neg]; exact hw
    have r0 : 0 ≤ (rsK1 - 2 * π) * z := mul_nonneg (by rw [hk2]; norm_num; linarith) (by linarith)
    have r1 : (rsK1 - 2 * π) * z ≤ (rsK1 - 2 * π) * 1 :=
      mul_le_mul_of_nonneg_left (by linarith) (by rw [hk2]; norm_num; linarith)
    generalize 2 * π * mu - (y.2.1 + lon - TH + sg * w + 2 * π * j) = v1 at *
    generalize (TH : ℝ) - (gmstDegrees jd * (π / 180) + a * (2 * π)) = v2 at *
    rw [abs_le] at pu b1 cd n1 n2
    norm_num at pu b1 cd n1 n2
    have L0 : L = 0 := by
      have l1 : (L : ℝ) < 1 := by
        by_contra hc
        rw [not_lt] at hc
        have : 2 * π * 1 ≤ 2 * π * L := mul_le_mul_of_nonneg_left hc (by linarith)
        have : 2 * π * (mu - z) ≤ 2 * π * (95 / 100) := mul_le_mul_of_nonneg_left (by linarith) (by linarith)
        linarith
      have l2 : (-1 : ℝ) < L := by
        by_contra hc
        rw [not_lt] at hc
        have : 2 * π * L ≤ 2 * π * (-1) := mul_le_mul_of_nonneg_left hc (by linarith)
        have : 2 * π * -(95 / 100) ≤ 2 * π * (mu - z) := mul_le_mul_of_nonneg_left (by linarith) (by linarith)
        linarith
      have l1' : L < 1 := by exact_mod_cast l1
      have l2' : -1 < L := by exact_mod_cast l2
      omega
    rw [L0] at main
    push_cast at main
    have near : |(mu : ℝ) - z| ≤ 0.02 := by
      rw [abs_le]
      norm_num
      constructor
      · by_contra hc
        rw [not_le] at hc
        have : 2 * π * (mu - z) ≤ 2 * π * -(1 / 50) := mul_le_mul_of_nonneg_left (by linarith) (by linarith)
        linarith
      · by_contra hc
        rw [not_le] at hc
        have : 2 * π * (1 / 50) ≤ 2 * π * (mu - z) := mul_le_mul_of_nonneg_left (by linarith) (by linarith)
        linarith
    obtain ⟨m', em, hb, hb2⟩ := S.loop hf hl delta 19 mu 0.02 (by norm_num) (near.trans (by norm_num)) le_rfl
      (lt_of_lt_of_le (by norm_num) hd)
    refine ⟨_, em, ?_⟩
    have := add_float_near hf (jd := jd) (m := m') (z := z) I.era
      (by rw [abs_le] at hb2 ⊢; norm_num at hb2 ⊢; constructor <;> linarith)
    norm_num at this hb ⊢
    linarith

/-- A small last step means a small residual of the altitude. -/
theorem small_step {fl : ℚ → ℚ} (hf : FloatLike fl) {m h h0 den delta : ℚ} (hm : |(m : ℝ)| ≤ 1.2) (hd : (delta : ℝ) ≤ 0.09)
    (d0 : den ≠ 0) (dB : |(den : ℝ)| ≤ 6.2832)
    (hs : |fl (fl (m + fl (fl (h - h0) / den)) - m)| < delta) :
    |(fl (m + fl (fl (h - h0) / den)) : ℝ) - m| ≤ 1.0001 * delta + 1e-19 ∧
    |(h : ℝ) - h0| ≤ 6.284 * |(fl (m + fl (fl (h - h0) / den)) : ℝ) - m| + 1e-14 := by
  have rd : ∀ x : ℚ, |(fl x : ℝ) - x| ≤ |(x : ℝ)| * 1.2e-16 + 1e-20 := by
    intro x
    have r := hf.errR x
    rw [uuR, wwR] at r
    have := abs_nonneg (x : ℝ)
    norm_num at r ⊢
    linarith
  have r1 := rd (h - h0)
  have r2 := rd (fl (h - h0) / den)
  have r3 := rd (m + fl (fl (h - h0) / den))
  have r4 := rd (fl (m + fl (fl (h - h0) / den)) - m)
  have hs' : |(fl (fl (m + fl (fl (h - h0) / den)) - m) : ℝ)| < delta := by exact_mod_cast hs
  generalize fl (fl (m + fl (fl (h - h0) / den)) - m) = s at *
  generalize fl (m + fl (fl (h - h0) / den)) = m' at *
  generalize fl (fl (h - h0) / den) = q at *
  generalize fl (h - h0) = f at *
  push_cast at r1 r2 r3 r4
  have d0' : (den : ℝ) ≠ 0 := by exact_mod_cast d0
  have d1 : 0 < |(den : ℝ)| := abs_pos.mpr d0'
  -- the difference
  have x0 := abs_nonneg ((m' : ℝ) - m)
  have t4 := abs_sub_abs_le_abs_sub ((m' : ℝ) - m) s
  rw [abs_sub_comm ((m' : ℝ) - m) s] at t4
  have a4 : |(m' : ℝ) - m| ≤ 1.0000001 * delta + 2e-20 := by
    have := hs'.le
    norm_num at r4 hd ⊢
    linarith
  refine ⟨by have := (abs_nonneg _).trans_lt hs'; norm_num at a4 ⊢; linarith, ?_⟩
  -- the step before rounding
  have q1 : |(m : ℝ) + q| ≤ 1.4 := by
    have a := abs_sub_abs_le_abs_sub ((m : ℝ) + q) m'
    rw [abs_sub_comm ((m : ℝ) + q) m'] at a
    have b := abs_add_le ((m' : ℝ) - m) m
    rw [sub_add_cancel] at b
    norm_num at a b r3 a4 hd hm ⊢
    linarith
  have q2 : |(q : ℝ)| ≤ |(m' : ℝ) - m| + 2e-16 := by
    have e : (q : ℝ) = (m' - m) - (m' - (m + q)) := by ring
    have := abs_sub ((m' : ℝ) - m) (m' - (m + q))
    rw [← e] at this
    norm_num at this r3 q1 ⊢
    linarith
  have q3 : |(f : ℝ) / den| ≤ 1.00001 * |(q : ℝ)| + 2e-20 := by
    have a := abs_sub_abs_le_abs_sub ((f : ℝ) / den) q
    rw [abs_sub_comm ((f : ℝ) / den) q] at a
    have := abs_nonneg (q : ℝ)
    norm_num at a r2 ⊢
    linarith
  have q4 : |(f : ℝ)| ≤ 6.2832 * |(f : ℝ) / den| := by
    have e : |(f : ℝ)| = |(den : ℝ)| * |(f : ℝ) / den| := by
      rw [← abs_mul, mul_div_cancel₀ _ d0']
    calc |(f : ℝ)| = |(den : ℝ)| * |(f : ℝ) / den| := e
      _ ≤ _ := mul_le_mul_of_nonneg_right dB (abs_nonneg _)
  have a := abs_sub_abs_le_abs_sub ((h : ℝ) - h0) f
  rw [abs_sub_comm ((h : ℝ) - h0) f] at a
  norm_num at a r1 q2 q3 q4 ⊢
  linarith

/-- What is known when the loop returns a time. -/
theorem riseset_loop_someF {fl : ℚ → ℚ} (hf : FloatLike fl) {lib : RiseLib} {N : ℕ} (hl : lib.Good fl N) {jd : ℚ}
    {y d : ℚ × ℚ × ℚ} {u : ℝ × ℝ × ℝ} {lon TH dT h0 delta lat phi t : ℚ}
    (S : RiseParamsF fl jd y d u lon TH dT) (hT : |(dT : ℝ)| ≤ 0.1) (hh : |(h0 : ℝ)| ≤ 0.5) (hd : (delta : ℝ) ≤ 0.09) :
    ∀ (k : ℕ) (m : ℚ), risesetLoopF fl lib jd TH dT y d h0 delta lon lat phi k m = .ok (some t) →
      ∃ m m' : ℚ, |(m : ℝ) + dT| ≤ 1.0001 ∧ t = fl (jd + m') ∧ |(m' : ℝ) - m| ≤ 1.0001 * delta + 1e-19 ∧
        |altitude phi (codeH jd lon dT u m) (parabola (castT d) (m + dT)) - h0| ≤ 6.284 * |(m' : ℝ) - m| + 1.3e-8 := by
  have hp' := Real.pi_lt_d4
  norm_num at hp'
  intro k
  induction k with
  | zero => intro m h; simp [risesetLoopF] at h
  | succ k ih =>
    intro m h
    unfold risesetLoopF at h
    simp only [bind, Except.bind] at h
    by_cases hn : -1 < fl (m + dT) ∧ fl (m + dT) < 1
    · have rg := fl_in_range hf hn
      push_cast at rg
      have mB : |(m : ℝ)| ≤ 1.2 := by
        rw [abs_le] at rg hT ⊢
        norm_num at rg hT ⊢
        constructor <;> linarith
      obtain ⟨-, R, D, eR, eD, nD, kH, nH⟩ := S.values hf mB hn
      rw [if_neg (by tauto), eR, eD] at h
      simp only at h
      generalize diffAngleF fl 0 (fl (fl (modpi2F fl pi2F (fl (TH + fl (rsK1F fl * m))) - lon) - R)) = H at *
      have dn := denF_near hf hl.trig D lat H
      obtain ⟨A1, A2⟩ := altitudeF_near hf hl.trig phi H D
      generalize fl (fl (fl (pi2F * lib.cosF D) * lib.cosF lat) * lib.sinF H) = den at *
      cases eh : (equToHorizF fl lib.toTrigLib phi H D).2 with
      | none =>
        rw [eh] at h
        simp only at h
        split_ifs at h
        cases h
      | some a =>
        rw [eh] at h
        simp only at h
        split_ifs at h with c1 c2 c3
        · cases h
        · simp only [Except.ok.injEq, Option.some.injEq] at h
          have dB : |(den : ℝ)| ≤ 6.2832 := by
            have b : |2 * π * (cos (D : ℝ) * cos (lat : ℝ) * sin (H : ℝ))| ≤ 2 * π := by
              rw [abs_mul, abs_of_pos (by positivity), abs_mul, abs_mul]
              refine mul_le_of_le_one_right (by positivity) ?_
              exact mul_le_one₀ (mul_le_one₀ (abs_cos_le_one _) (abs_nonneg _) (abs_cos_le_one _)) (abs_nonneg _)
                (abs_sin_le_one _)
            have := Real.pi_lt_d6
            have := dn.abs b
            norm_num at *
            linarith
          obtain ⟨b1, b2⟩ := small_step hf mB hd c1 dB c3
          refine ⟨m, _, rg, h.symm, b1, ?_⟩
          have hb : |(a : ℝ)| ≤ 1.1 := by
            have := abs_add_le ((a : ℝ) - h0) h0
            rw [sub_add_cancel] at this
            norm_num at b1 b2 hd hh ⊢
            linarith
          have ca : 0.39 ≤ cos (a : ℝ) := by
            have := one_sub_sq_div_two_le_cos (x := (a : ℝ))
            have s2 : (a : ℝ) ^ 2 ≤ 1.1 ^ 2 := by rw [← sq_abs]; exact pow_le_pow_left₀ (abs_nonneg _) hb 2
            norm_num at s2 ⊢
            linarith
          have sa := A2 a eh
          have cz : 0.38 ≤ cos (altitude phi H D) := by
            have c0 : 0 ≤ cos (altitude phi H D) := by
              rw [altitude_eq]
              exact Real.cos_arcsin_nonneg _
            by_contra hc
            rw [not_le] at hc
            have e1 := Real.sin_sq_add_cos_sq (a : ℝ)
            have e2 := Real.sin_sq_add_cos_sq (altitude phi H D)
            have e3 : |sin (a : ℝ) ^ 2 - sin (altitude phi H D) ^ 2| ≤ 2 * 6e-15 := by
              rw [sq_sub_sq, abs_mul]
              refine mul_le_mul ((abs_add_le _ _).trans ?_) sa (abs_nonneg _) (by norm_num)
              exact (add_le_add (abs_sin_le_one _) (abs_sin_le_one _)).trans (by norm_num)
            have e4 : cos (altitude phi H D) ^ 2 ≤ 0.38 ^ 2 := pow_le_pow_left₀ c0 hc.le 2
            have e5 : (0.39 : ℝ) ^ 2 ≤ cos (a : ℝ) ^ 2 := pow_le_pow_left₀ (by norm_num) ca 2
            have e6 := (abs_le.mp e3).1
            norm_num at e4 e5 e6
            linarith
          obtain ⟨a', ea, na⟩ := A1 (le_trans (by norm_num) cz)
          rw [eh] at ea
          cases ea
          have na' : |(a : ℝ) - altitude phi H D| ≤ 1e-13 := by
            refine na.trans ?_
            rw [div_le_iff₀ (lt_of_lt_of_le (by norm_num) cz)]
            norm_num at cz ⊢
            linarith
          have cX : Congr (2 * π) (H : ℝ) (H - kH * (2 * π)) := ⟨kH, by ring⟩
          rw [altitude_congr cX] at na'
          have lip := altitude_lip phi (codeH jd lon dT u m) (parabola (castT d) (m + dT)) (H - kH * (2 * π)) D
          have lb : π / 2 * (|codeH jd lon dT u m - (H - kH * (2 * π))| + |parabola (castT d) (m + dT) - D|) ≤
              1.5708 * (7.6e-9 + 1.1e-15) := by
            refine mul_le_mul (by norm_num; linarith) (add_le_add ?_ ?_) (by positivity) (by norm_num)
            · unfold Near at nH
              rw [abs_sub_comm, show (H : ℝ) - kH * (2 * π) - codeH jd lon dT u m =
                H - (codeH jd lon dT u m + kH * (2 * π)) by ring]
              exact nH
            · rw [abs_sub_comm]; exact nD
          generalize altitude phi (codeH jd lon dT u m) (parabola (castT d) (m + dT)) = z1 at *
          generalize altitude phi (H - kH * (2 * π)) D = z2 at *
          have e : z1 - h0 = (z1 - z2) - (a - z2) + (a - h0) := by ring
          rw [e]
          refine (abs_add_le _ _).trans ?_
          have := abs_sub (z1 - z2) ((a : ℝ) - z2)
          norm_num at lb na' b2 this ⊢
          linarith
        · exact ih _ h
    · rw [if_pos (by tauto)] at h
      cases h

/-- C85: at a time that is returned by the code as computed with floats, for rising as for setting, the object
has the altitude asked for, for an observer at the latitude `globals.latitude` (`phi`), up to 18 times the
precision. -/
theorem riseset_float_sound {fl : ℚ → ℚ} (hf : FloatLike fl) {lib : RiseLib} {N : ℕ} (hl : lib.Good fl N) {jd : ℚ}
    {y d : ℚ × ℚ × ℚ} {u : ℝ × ℝ × ℝ} {lon lat phi h0 delta t : ℚ} {dT : ℝ} {mode : RsMode}
    (era : |(jd : ℝ) - 2451545| ≤ 1100000) (hr : Reduced (castT y) u) (hs : Slow 0.4 0.1 u) (hsd : Slow 0.2 0.1 (castT d))
    (hdec : |(d.2.1 : ℝ)| ≤ 2) (hlon : |(lon : ℝ)| ≤ π) (hh : |(h0 : ℝ)| ≤ 0.5) (hd : (delta : ℝ) ≤ 0.09)
    (hT : |(deltaTDaysF fl jd : ℝ) - dT| ≤ 1e-9) (hT' : |dT| ≤ 0.09)
    (h : risesetF fl lib jd y d h0 delta mode lon lat phi = .ok (some t)) :
    |altitude phi (hourAngle jd lon dT u (t - jd)) (parabola (castT d) (t - jd + dT)) - h0| ≤ 18 * delta + 1e-7 := by
  have hp := Real.pi_gt_d4
  have hp' := Real.pi_lt_d4
  have hk := rsK1_bounds
  norm_num at hp hp' hk
  have rg := siderealF_range hf jd
  have nT := siderealF_near hf era
  unfold risesetF at h
  simp only at h
  generalize siderealF fl jd = TH at *
  generalize deltaTDaysF fl jd = dTF at *
  have key : ∃ m, risesetLoopF fl lib jd TH dTF y d h0 delta lon lat phi 20 m = .ok (some t) := by
    split_ifs at h
    · cases h
    · cases h
    · cases h
    · split at h
      · cases h
      · split at h
        · cases h
        · exact ⟨_, h⟩
  obtain ⟨m₀, hm₀⟩ := key
  have P : RiseParamsF fl jd y d u lon TH dTF := ⟨hr, hs, hsd, hdec, hlon, nT, rg⟩
  have t2 := abs_le.mp hT
  have t2' := abs_le.mp hT'
  norm_num at t2 t2'
  obtain ⟨m, m', n0, et, hb, hal⟩ := riseset_loop_someF hf hl P
    (by rw [abs_le]; norm_num; constructor <;> linarith) hh hd _ _ hm₀
  have n0' := abs_le.mp n0
  have hb' := abs_le.mp hb
  norm_num at n0' hb' hd
  have tn := add_float_near hf (jd := jd) (m := m') (z := m') era
    (by rw [abs_le]; constructor <;> linarith)
  rw [← et, sub_self, abs_zero, zero_add, show (t : ℝ) - (jd + m') = t - jd - m' by ring] at tn
  obtain ⟨x, hx⟩ : ∃ x : ℝ, x = t - jd := ⟨_, rfl⟩
  rw [← hx] at tn ⊢
  have tn' := abs_le.mp tn
  norm_num at tn'
  have a0 : |(m : ℝ) + dTF| ≤ 1.1 := n0.trans (by norm_num)
  have a1 : |x + dT| ≤ 1.1 := by rw [abs_le]; norm_num; constructor <;> linarith
  have a2 : |(m : ℝ) + dT| ≤ 1.1 := by rw [abs_le]; norm_num; constructor <;> linarith
  have cd := codeH_diff (lon := (lon : ℝ)) era hs (z := x) (m := (m : ℝ)) (dT := dT) (r := 1.1)
    (by rw [abs_le]; norm_num; constructor <;> linarith) a2 a1
  have cdT : |codeH jd lon dTF u m - codeH jd lon dT u m| ≤ 1e-9 := by
    have l := parabola_lip hs a0 a2
    rw [show codeH jd lon dTF u m - codeH jd lon dT u m = -(parabola u (m + dTF) - parabola u (m + dT)) by
      unfold codeH; ring, abs_neg]
    refine l.trans ?_
    rw [show (m : ℝ) + dTF - (m + dT) = dTF - dT by ring]
    norm_num at hT ⊢
    linarith
  have dd := parabola_lip hsd a0 a1
  have x0 := abs_nonneg ((m : ℝ) - x)
  have dx : |(m : ℝ) + dTF - (x + dT)| ≤ |(m : ℝ) - x| + 1e-9 := by
    rw [show (m : ℝ) + dTF - (x + dT) = (m - x) + (dTF - dT) by ring]
    exact (abs_add_le _ _).trans (add_le_add le_rfl hT)
  have mx : |(m : ℝ) - x| ≤ |(m' : ℝ) - m| + 4.1e-10 := by
    rw [show (m : ℝ) - x = -((m' - m) + (x - m')) by ring, abs_neg]
    exact (abs_add_le _ _).trans (add_le_add le_rfl tn)
  have lip := altitude_lip phi (hourAngle jd lon dT u x) (parabola (castT d) (x + dT)) (codeH jd lon dTF u m)
    (parabola (castT d) (m + dTF))
  have hH : |hourAngle jd lon dT u x - codeH jd lon dTF u m| ≤ 6.811 * |(m : ℝ) - x| + 2.4e-8 := by
    rw [abs_sub_comm]
    have : codeH jd lon dTF u m - hourAngle jd lon dT u x = (codeH jd lon dTF u m - codeH jd lon dT u m) +
        ((codeH jd lon dT u m - hourAngle jd lon dT u x - rsK1 * (m - x)) + rsK1 * (m - x)) := by ring
    rw [this]
    refine (abs_add_le _ _).trans (add_le_add cdT ((abs_add_le _ _).trans (add_le_add cd le_rfl)) |>.trans ?_)
    rw [abs_mul rsK1, abs_of_pos (by linarith : 0 < rsK1)]
    have : rsK1 * |(m : ℝ) - x| ≤ 6.301 * |(m : ℝ) - x| := mul_le_mul_of_nonneg_right (by norm_num; linarith) x0
    norm_num at this ⊢
    linarith
  rw [abs_sub_comm] at dd
  have hsum : |hourAngle jd lon dT u x - codeH jd lon dTF u m| +
      |parabola (castT d) (x + dT) - parabola (castT d) (m + dTF)| ≤ 7.121 * |(m : ℝ) - x| + 2.5e-8 := by
    norm_num at hH dd dx ⊢
    linarith
  have l2 := lip.trans (mul_le_mul (show π / 2 ≤ 1.5708 by norm_num; linarith) hsum (by positivity) (by norm_num))
  have t1 := abs_add_le (altitude phi (hourAngle jd lon dT u x) (parabola (castT d) (x + dT)) -
    altitude phi (codeH jd lon dTF u m) (parabola (castT d) (m + dTF)))
    (altitude phi (codeH jd lon dTF u m) (parabola (castT d) (m + dTF)) - h0)
  rw [sub_add_sub_cancel] at t1
  refine t1.trans ?_
  have d0 : 0 ≤ 1.0001 * (delta : ℝ) + 1e-19 := (abs_nonneg _).trans hb
  norm_num at l2 hal mx hb d0 ⊢
  linarith

/-- The quotient of the first estimate, with a margin. -/
theorem acos_arg_near {fl : ℚ → ℚ} (hf : FloatLike fl) {lib : RiseLib} {N : ℕ} (hl : lib.Good fl N) (lat d1 h0 : ℚ) :
    Near (fl (lib.sinF h0 - fl (lib.sinF lat * lib.sinF d1))) (sin (h0 : ℝ) - sin (lat : ℝ) * sin (d1 : ℝ)) 3.1e-15 ∧
    Near (fl (lib.cosF lat * lib.cosF d1)) (cos (lat : ℝ) * cos (d1 : ℝ)) 1.9e-15 := by
  obtain ⟨p1, p2⟩ := prod1_near hf (hl.trig.num.sin lat) (hl.trig.num.sin d1) (abs_sin_le_one _) (abs_sin_le_one _)
  obtain ⟨c1, c2⟩ := prod1_near hf (hl.trig.num.cos lat) (hl.trig.num.cos d1) (abs_cos_le_one _) (abs_cos_le_one _)
  have s1 : Near (lib.sinF h0) (sin (h0 : ℝ)) (1 / 2 ^ 50) := hl.trig.num.sin h0
  exact ⟨(s1.sub p2).rnd hf ((abs_sub _ _).trans (add_le_add (abs_sin_le_one _) p1)) (by rw [uuR, wwR]; norm_num),
    c2.mono (by norm_num)⟩

theorem sin_gap {a b : ℝ} (ha : |a| ≤ 0.5) (hb : -(π / 2) ≤ b) (h : b ≤ a - 1e-13) : 2e-14 ≤ sin a - sin b := by
  have hp := Real.pi_gt_d4
  norm_num at hp
  have ha' := abs_le.mp ha
  norm_num at ha' h
  have m := Real.sin_le_sin_of_le_of_le_pi_div_two hb (by linarith : a - 1 / 10000000000000 ≤ π / 2) h
  have e := Real.sin_sub_sin a (a - 1 / 10000000000000)
  rw [show (a - (a - 1 / 10000000000000)) / 2 = (1 / 20000000000000 : ℝ) by ring] at e
  have s1 := Real.sin_gt_sub_cube (x := 1 / 20000000000000) (by norm_num)
  have c1 := one_sub_sq_div_two_le_cos (x := (a + (a - 1 / 10000000000000)) / 2)
  have c2 : ((a + (a - 1 / 10000000000000)) / 2) ^ 2 ≤ 0.6 ^ 2 := by
    rw [← sq_abs]
    refine pow_le_pow_left₀ (abs_nonneg _) ?_ 2
    rw [abs_le]
    norm_num
    constructor <;> linarith
  have c3 : 0.5 ≤ cos ((a + (a - 1 / 10000000000000)) / 2) := by norm_num at c2 ⊢; linarith
  have s2 : 4e-14 ≤ sin (1 / 20000000000000) := by norm_num at s1 ⊢; linarith
  have := mul_le_mul s2 c3 (by norm_num) (le_trans (by norm_num) s2)
  norm_num at this ⊢
  linarith

/-- A quotient beyond 1 in spite of rounding. -/
theorem quotient_above {fl : ℚ → ℚ} (hf : FloatLike fl) {a b : ℚ} (b0 : 8e-15 ≤ (b : ℝ)) (b1 : (b : ℝ) ≤ 1.1)
    (h : (b : ℝ) + 1e-14 ≤ a) : 1 < fl (a / b) := by
  have bp : (0 : ℝ) < b := lt_of_lt_of_le (by norm_num) b0
  have r := (abs_le.mp (hf.errR (a / b))).1
  rw [uuR, wwR] at r
  have q : 1 + 9e-15 ≤ ((a / b : ℚ) : ℝ) := by
    push_cast
    rw [le_div_iff₀ bp]
    norm_num at b1 h ⊢
    linarith
  rw [abs_of_pos (lt_of_lt_of_le (by norm_num) q)] at r
  have : (1 : ℝ) < fl (a / b) := by
    generalize ((a / b : ℚ) : ℝ) = x at *
    norm_num at q r ⊢
    linarith
  exact_mod_cast this

theorem quotient_below {fl : ℚ → ℚ} (hf : FloatLike fl) {a b : ℚ} (b0 : 8e-15 ≤ (b : ℝ)) (b1 : (b : ℝ) ≤ 1.1)
    (h : (a : ℝ) ≤ -b - 1e-14) : fl (a / b) < -1 := by
  have bp : (0 : ℝ) < b := lt_of_lt_of_le (by norm_num) b0
  have r := (abs_le.mp (hf.errR (a / b))).2
  rw [uuR, wwR] at r
  have q : ((a / b : ℚ) : ℝ) ≤ -(1 + 9e-15) := by
    push_cast
    rw [div_le_iff₀ bp]
    norm_num at b1 h ⊢
    linarith
  rw [abs_of_neg (lt_of_le_of_lt q (by norm_num))] at r
  have : (fl (a / b) : ℝ) < -1 := by
    generalize ((a / b : ℚ) : ℝ) = x at *
    norm_num at q r ⊢
    linarith
  exact_mod_cast this

/-- C85: for an object that stays below the altitude `h0`, at its declination at 0h, the result of the
floating-point code is `None`. -/
theorem riseset_float_never_rises {fl : ℚ → ℚ} (hf : FloatLike fl) {lib : RiseLib} {N : ℕ} (hl : lib.Good fl N) {jd : ℚ}
    {y d : ℚ × ℚ × ℚ} {h0 delta lon lat phi : ℚ} {mode : RsMode} (hc : 1e-14 ≤ cos (lat : ℝ) * cos (d.2.1 : ℝ))
    (hh : |(h0 : ℝ)| ≤ 0.5) (h : ∀ H, altitude lat H d.2.1 ≤ h0 - 1e-13) :
    risesetF fl lib jd y d h0 delta mode lon lat phi = .ok none := by
  obtain ⟨n1, n2⟩ := acos_arg_near hf hl lat d.2.1 h0
  have g := sin_gap hh (by rw [altitude_eq]; exact Real.neg_pi_div_two_le_arcsin _) (h 0)
  rw [sin_altitude, cos_zero, mul_one] at g
  have c1 : cos (lat : ℝ) * cos (d.2.1 : ℝ) ≤ 1 := by
    have := abs_mul (cos (lat : ℝ)) (cos (d.2.1 : ℝ))
    exact (le_abs_self _).trans (this ▸ mul_le_one₀ (abs_cos_le_one _) (abs_nonneg _) (abs_cos_le_one _))
  unfold Near at n1 n2
  rw [abs_le] at n1 n2
  unfold risesetF
  simp only
  generalize fl (lib.sinF h0 - fl (lib.sinF lat * lib.sinF d.2.1)) = a at *
  generalize fl (lib.cosF lat * lib.cosF d.2.1) = b at *
  norm_num at n1 n2 g hc c1
  have q := quotient_above hf (a := a) (b := b) (by norm_num; linarith) (by norm_num; linarith) (by norm_num; linarith)
  rw [if_neg, if_neg (by linarith), if_pos q]
  intro e
  rw [e] at n2
  norm_num at n2
  linarith

/-- C85: likewise for one that stays above. -/
theorem riseset_float_circumpolar {fl : ℚ → ℚ} (hf : FloatLike fl) {lib : RiseLib} {N : ℕ} (hl : lib.Good fl N) {jd : ℚ}
    {y d : ℚ × ℚ × ℚ} {h0 delta lon lat phi : ℚ} {mode : RsMode} (hc : 1e-14 ≤ cos (lat : ℝ) * cos (d.2.1 : ℝ))
    (hh : |(h0 : ℝ)| ≤ 0.5) (h : ∀ H, h0 + 1e-13 ≤ altitude lat H d.2.1) :
    risesetF fl lib jd y d h0 delta mode lon lat phi = .ok none := by
  obtain ⟨n1, n2⟩ := acos_arg_near hf hl lat d.2.1 h0
  have g := sin_gap (a := -(h0 : ℝ)) (b := -altitude lat π d.2.1) (by rw [abs_neg]; exact hh)
    (by rw [altitude_eq]; linarith [Real.arcsin_le_pi_div_two (sin (lat : ℝ) * sin (d.2.1 : ℝ) + cos (lat : ℝ) * cos (d.2.1 : ℝ) * cos π)])
    (by linarith [h π])
  rw [sin_neg, sin_neg, sin_altitude, cos_pi] at g
  have c1 : cos (lat : ℝ) * cos (d.2.1 : ℝ) ≤ 1 := by
    have := abs_mul (cos (lat : ℝ)) (cos (d.2.1 : ℝ))
    exact (le_abs_self _).trans (this ▸ mul_le_one₀ (abs_cos_le_one _) (abs_nonneg _) (abs_cos_le_one _))
  unfold Near at n1 n2
  rw [abs_le] at n1 n2
  unfold risesetF
  simp only
  generalize fl (lib.sinF h0 - fl (lib.sinF lat * lib.sinF d.2.1)) = a at *
  generalize fl (lib.cosF lat * lib.cosF d.2.1) = b at *
  norm_num at n1 n2 g hc c1
  have q := quotient_below hf (a := a) (b := b) (by norm_num; linarith) (by norm_num; linarith) (by norm_num; linarith)
  rw [if_neg, if_pos q]
  intro e
  rw [e] at n2
  norm_num at n2
  linarith

/-- The hypotheses are met: at latitude 1 (57 degrees) an object at declination -1 never rises, one at
declination 1 never sets. -/
example {fl : ℚ → ℚ} (hf : FloatLike fl) {lib : RiseLib} {N : ℕ} (hl : lib.Good fl N) (jd delta lon phi : ℚ)
    (y : ℚ × ℚ × ℚ) (mode : RsMode) :
    risesetF fl lib jd y (-1, -1, -1) 0 delta mode lon 1 phi = .ok none ∧
    risesetF fl lib jd y (1, 1, 1) 0 delta mode lon 1 phi = .ok none := by
  have c1 := one_sub_sq_div_two_le_cos (x := (1 : ℝ))
  have c2 : cos (1 : ℝ) ≤ 0.6 := Real.cos_one_le.trans (by norm_num)
  norm_num at c1 c2
  have sc := Real.sin_sq_add_cos_sq (1 : ℝ)
  have q : 1 / 4 ≤ cos (1 : ℝ) * cos 1 := by nlinarith
  have q2 : cos (1 : ℝ) * cos 1 ≤ 9 / 25 := by nlinarith
  have k : ∀ x : ℝ, 0.1 ≤ x → 1e-13 ≤ arcsin x := by
    intro x hx
    have h1 : (0.1 : ℝ) ≤ arcsin x := by
      have := Real.monotone_arcsin hx
      refine le_trans ?_ this
      rw [Real.le_arcsin_iff_sin_le' ⟨by linarith [Real.pi_gt_three], by norm_num; linarith [Real.pi_gt_three]⟩]
      exact Real.sin_le (by norm_num)
    exact le_trans (by norm_num) h1
  have cb : ∀ H : ℝ, |cos (1 : ℝ) * cos 1 * cos H| ≤ 9 / 25 := by
    intro H
    rw [abs_mul, abs_of_nonneg (by linarith)]
    exact (mul_le_mul q2 (abs_cos_le_one H) (abs_nonneg _) (by norm_num)).trans (by norm_num)
  constructor
  · refine riseset_float_never_rises hf hl (by push_cast; rw [cos_neg]; norm_num; linarith) (by norm_num) ?_
    intro H
    have := k (sin 1 * sin 1 - cos 1 * cos 1 * cos H)
      (by have := (abs_le.mp (cb H)).2; norm_num; nlinarith)
    rw [altitude_eq]
    push_cast
    rw [sin_neg, cos_neg, show sin (1 : ℝ) * -sin 1 + cos 1 * cos 1 * cos H = -(sin 1 * sin 1 - cos 1 * cos 1 * cos H) by ring,
      arcsin_neg]
    linarith
  · refine riseset_float_circumpolar hf hl (by push_cast; norm_num; linarith) (by norm_num) ?_
    intro H
    have := k (sin 1 * sin 1 + cos 1 * cos 1 * cos H)
      (by have := (abs_le.mp (cb H)).1; norm_num; nlinarith)
    rw [altitude_eq]
    push_cast
    linarith

/-- The library assumed above can exist. -/
theorem riseLib_exists (D : ℕ) (sumF : List ℚ → ℚ) (fl : ℚ → ℚ) (hs : SumLike fl 1400 D sumF) :
    ∃ lib : RiseLib, lib.Good fl D := by
  obtain ⟨lib, hl⟩ := trigLib_exists D sumF fl hs
  have ex : ∀ y : ℝ, ∃ q : ℚ, |(q : ℝ) - y| ≤ 1 / 2 ^ 50 := by
    intro y
    obtain ⟨q, h1, h2⟩ := exists_rat_btwn (show y - 1 / 2 ^ 50 < y by norm_num)
    exact ⟨q, abs_le.mpr ⟨by linarith, by norm_num at h2 ⊢; linarith⟩⟩
  choose f hf using ex
  exact ⟨⟨lib, fun x => some (f (arccos x))⟩, hl, fun x _ => ⟨_, rfl, hf _⟩⟩

/-- C85, from 1621 to 2014: a time returned by `_riseset` as computed with floats. -/
theorem riseset_float_sound_table {fl : ℚ → ℚ} (hr : Rounding fl) {lib : RiseLib} {N : ℕ} (hl : lib.Good fl N) {jd : ℚ}
    {y d : ℚ × ℚ × ℚ} {u : ℝ × ℝ × ℝ} {lon lat phi h0 delta t : ℚ} {mode : RsMode}
    (hF : IsF64 jd) (j0 : 2313118.5 ≤ jd) (j1 : jd ≤ 2456932.25)
    (hy : Reduced (castT y) u) (hs : Slow 0.4 0.1 u) (hsd : Slow 0.2 0.1 (castT d))
    (hdec : |(d.2.1 : ℝ)| ≤ 2) (hlon : |(lon : ℝ)| ≤ π) (hh : |(h0 : ℝ)| ≤ 0.5) (hd : (delta : ℝ) ≤ 0.09)
    (h : risesetF fl lib jd y d h0 delta mode lon lat phi = .ok (some t)) :
    |altitude phi (hourAngle jd lon (deltaTDays jd) u (t - jd)) (parabola (castT d) (t - jd + deltaTDays jd)) - h0| ≤
      18 * delta + 1e-7 := by
  have j0' : (2313118.5 : ℝ) ≤ jd := by
    have : ((2313118.5 : ℚ) : ℝ) ≤ jd := by exact_mod_cast j0
    norm_num at this ⊢; linarith
  have j1' : (jd : ℝ) ≤ 2456932.25 := by
    have : (jd : ℝ) ≤ (2456932.25 : ℚ) := by exact_mod_cast j1
    norm_num at this ⊢; linarith
  norm_num at j0' j1'
  refine riseset_float_sound hr.floatLike hl (by rw [abs_le]; constructor <;> linarith) hy hs hsd hdec hlon hh hd
    ((deltaTDaysF_near hr hF j0 j1).trans (by norm_num)) ?_ h
  have b := deltaT_range jd j0 j1
  have b0 : (-10 : ℝ) ≤ deltaTSeconds (fun x => x) jd := by exact_mod_cast b.1
  have b1 : (deltaTSeconds (fun x => x) jd : ℝ) ≤ 121 := by exact_mod_cast b.2
  unfold deltaTDays
  rw [abs_le]
  norm_num
  constructor <;> linarith

/-- C85, from 1621 to 2014: a rising or setting is found. -/
theorem riseset_float_found_table {fl : ℚ → ℚ} (hr : Rounding fl) {lib : RiseLib} {N : ℕ} (hl : lib.Good fl N) {jd : ℚ}
    {y d : ℚ × ℚ × ℚ} {u : ℝ × ℝ × ℝ} {lon phi h0 delta : ℚ} {z : ℝ} {mode : RsMode}
    (hF : IsF64 jd) (j0 : 2313118.5 ≤ jd) (j1 : jd ≤ 2456932.25)
    (I : RiseInput jd (castT y) u (castT d) phi h0) (hlon : |(lon : ℝ)| ≤ π) (hdec : |(d.2.1 : ℝ)| ≤ 2)
    (hd : 1e-7 ≤ (delta : ℝ)) (z0 : 0.05 ≤ z) (z1 : z ≤ 0.95)
    (ev : altitude phi (hourAngle jd lon (deltaTDays jd) u z) (parabola (castT d) (z + deltaTDays jd)) = h0)
    (st : 0.45 ≤ |cos (parabola (castT d) (z + deltaTDays jd)) * cos (phi : ℝ) * sin (hourAngle jd lon (deltaTDays jd) u z)|)
    (hm : mode = .rise ∧ sin (hourAngle jd lon (deltaTDays jd) u z) < 0 ∨
      mode = .set ∧ 0 < sin (hourAngle jd lon (deltaTDays jd) u z)) :
    (risesetF fl lib jd y d h0 delta mode lon phi phi = .error (.Error "riseset" "m is out of range") ∧
      (mode = .rise ∧ (y.2.1 : ℝ) + lon ≤ π + 1e-12 ∨
       mode = .set ∧ ((y.2.1 : ℝ) + lon ≤ 1e-12 ∨ 3 * π - 1e-12 ≤ y.2.1 + lon))) ∨
    ∃ t, risesetF fl lib jd y d h0 delta mode lon phi phi = .ok (some t) ∧
      |(t : ℝ) - (jd + z)| ≤ 0.52 * delta + 2.1e-8 := by
  refine riseset_float_found hr.floatLike hl I hlon hdec hd ((deltaTDaysF_near hr hF j0 j1).trans (by norm_num)) z0 z1 ?_ ev st hm
  have b := deltaT_range jd j0 j1
  have b0 : (-10 : ℝ) ≤ deltaTSeconds (fun x => x) jd := by exact_mod_cast b.1
  have b1 : (deltaTSeconds (fun x => x) jd : ℝ) ≤ 121 := by exact_mod_cast b.2
  unfold deltaTDays
  rw [abs_le]
  norm_num at z0 z1 ⊢
  constructor <;> linarith

/-- The hypotheses are met: on 2000 January 1 a star of the equator at right ascension 5 rises at longitude
and latitude 0 between 0.2 and 0.3 day, and the code finds it. -/
theorem riseset_float_star {fl : ℚ → ℚ} (hr : Rounding fl) {lib : RiseLib} {N : ℕ} (hl : lib.Good fl N) :
    ∃ (t : ℚ) (m : ℝ), 0.2 ≤ m ∧ m ≤ 0.3 ∧
    altitude 0 (hourAngle (2451544.5 : ℚ) 0 (deltaTDays 2451544.5) (5, 5, 5) m)
      (parabola (0, 0, 0) (m + deltaTDays 2451544.5)) = 0 ∧
    risesetF fl lib 2451544.5 (5, 5, 5) (0, 0, 0) 0 0.001 .rise 0 0 0 = .ok (some t) ∧
    |(t : ℝ) - ((2451544.5 : ℚ) + m)| ≤ 0.00053 := by
  have hp := Real.pi_gt_d6
  have hp' := Real.pi_lt_d6
  norm_num at hp hp'
  obtain ⟨m, m0, m1, ev, st⟩ := star_rises (jd := ((2451544.5 : ℚ) : ℝ)) (lon := 0) (r := 5) (a := 0.2)
    (b := 0.3) (dT := deltaTDays 2451544.5) 0 (by norm_num)
    (by unfold gmstDegrees; push_cast; norm_num; linarith)
    (by unfold gmstDegrees; push_cast; norm_num; linarith)
  norm_num at m0 m1
  have sgn : sin (hourAngle (2451544.5 : ℚ) 0 (deltaTDays 2451544.5) (5, 5, 5) m) < 0 := by
    rw [parabola_const, cos_zero] at st; linarith
  have I := star_riseInput (jd := 2451544.5) (r := 5) (by rw [abs_le]; push_cast; norm_num) (by norm_num) (by linarith)
  have c5 : castT (5, 5, 5) = (5, 5, 5) := by unfold castT; push_cast; rfl
  have c0 : castT (0, 0, 0) = (0, 0, 0) := by unfold castT; push_cast; rfl
  rcases riseset_float_found_table hr hl (delta := 0.001) (mode := .rise) (lon := 0) (jd := 2451544.5) (y := (5, 5, 5))
    (d := (0, 0, 0)) (phi := 0) (h0 := 0) (u := (5, 5, 5)) (z := m)
    ⟨4903089, -1, by norm_num, by norm_num, by norm_num⟩ (by norm_num) (by norm_num)
    (by rw [c5, c0]; push_cast; exact I) (by norm_num; positivity) (by norm_num) (by push_cast; norm_num)
    (by norm_num; linarith) (by norm_num; linarith)
    (by rw [c0]; push_cast; exact ev) (by rw [c0, Rat.cast_zero, st]; norm_num) (.inl ⟨rfl, by push_cast; exact sgn⟩) with
    ⟨-, h⟩ | ⟨t, h, hb⟩
  · exfalso
    simp only [reduceCtorEq, false_and, or_false, true_and] at h
    push_cast at h
    norm_num at h
    linarith
  · refine ⟨t, m, by norm_num; linarith, by norm_num; linarith, ev, h, hb.trans (by push_cast; norm_num)⟩

end Verif

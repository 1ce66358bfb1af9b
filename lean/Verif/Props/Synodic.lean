import Verif.Props.MoonMotion
import Verif.Props.Planets
import Mathlib.Analysis.Real.Pi.Bounds

/-!
# C74: the periods of the planets

The tables of periods below are the specification.  They are the tropical periods and the synodic
periods of astronomy, in days, each with the deviation allowed for the eccentricity of the orbits and
the secular terms.
-/

namespace Verif
open Real

/-- A planet, the mean time (days) in which it returns to the same longitude and the greatest
deviation (days). -/
def periods : List (String × ℚ × ℚ) :=
  [("Mercury", 87.969, 14.2), ("Venus", 224.695, 1.4), ("Earth", 365.242, 4.8), ("Mars", 686.93, 52.2),
   ("Jupiter", 4330.6, 183), ("Saturn", 10747, 678), ("Uranus", 30588.7, 1224), ("Neptune", 59799.9, 650)]

/-- Two planets, the mean time (days) in which the inner one gains a turn on the outer one and the
greatest deviation (days). -/
def synodics : List (String × String × ℚ × ℚ) :=
  [("Mercury", "Venus", 144.566, 24.2), ("Mercury", "Earth", 115.877, 20.2), ("Mercury", "Mars", 100.888, 23.9),
   ("Mercury", "Jupiter", 89.792, 18.3), ("Mercury", "Saturn", 88.694, 19.9), ("Mercury", "Uranus", 88.222, 17.8),
   ("Mercury", "Neptune", 88.098, 15.2), ("Venus", "Earth", 583.921, 11.2), ("Venus", "Mars", 333.922, 27.5),
   ("Venus", "Jupiter", 236.992, 11.5), ("Venus", "Saturn", 229.494, 15.9), ("Venus", "Uranus", 226.358, 10.5),
   ("Venus", "Neptune", 225.543, 3.9), ("Earth", "Mars", 779.936, 69.4), ("Earth", "Jupiter", 398.884, 22.1),
   ("Earth", "Saturn", 378.092, 28.8), ("Earth", "Uranus", 369.656, 19.6), ("Earth", "Neptune", 367.487, 8.8),
   ("Mars", "Jupiter", 816.435, 96.5), ("Mars", "Saturn", 733.835, 102), ("Mars", "Uranus", 702.71, 81.5),
   ("Mars", "Neptune", 694.912, 60.3), ("Jupiter", "Saturn", 7253.5, 764), ("Jupiter", "Uranus", 5044.8, 416),
   ("Jupiter", "Neptune", 4668.7, 249), ("Saturn", "Uranus", 16567.8, 1708), ("Saturn", "Neptune", 13101.5, 969),
   ("Uranus", "Neptune", 62620.0, 3185)]

/-- In every stretch of `hi` days each angle is taken, and none is taken twice within less than `lo`
days; all within 2000 years of J2000. -/
def Recurs (lo hi : ℝ) (takes : ℝ → ℝ → Prop) : Prop :=
  ∀ t : ℝ, (∀ jd, |millennia jd| ≤ 2 → |millennia (jd + hi)| ≤ 2 → ∃ y, jd ≤ y ∧ y ≤ jd + hi ∧ takes t y) ∧
    ∀ x y, |millennia x| ≤ 2 → |millennia y| ≤ 2 → x < y → takes t x → takes t y → x + lo ≤ y

/-- What is needed of a longitude: it grows, and it stays near a uniform motion. -/
theorem recurs_of_mean {f : ℝ → ℝ} {r d m E lo hi : ℝ} (hd : 0 ≤ d) (hr : d < r) (hm : 0 < m)
    (rate : ∀ x y, |millennia x| ≤ 2 → |millennia y| ≤ 2 → |f x - f y - r * (x - y)| ≤ d * |x - y|)
    (mean : ∀ x y, |millennia x| ≤ 2 → |millennia y| ≤ 2 → |f x - f y - m * (x - y)| ≤ E)
    (hhi : 2 * π + E ≤ m * hi) (hlo : m * lo ≤ 2 * π - E) :
    Recurs lo hi (fun t y => Congr (2 * π) (f y) t) := by
  have E0 : 0 ≤ E := (abs_nonneg _).trans (mean 2451545 2451545 (by norm_num [millennia]) (by norm_num [millennia]))
  have hi0 : 0 ≤ hi := by
    have : 0 < m * hi := by linarith [Real.pi_pos]
    exact (pos_of_mul_pos_right this hm.le).le
  intro t
  constructor
  · intro jd h0 h1
    have near : ∀ x ∈ Set.Icc jd (jd + hi), |millennia x| ≤ 2 := by
      intro x hx
      unfold millennia at h0 h1 ⊢
      rw [abs_le] at h0 h1 ⊢
      obtain ⟨a, b⟩ := hx
      obtain ⟨h0, -⟩ := h0
      obtain ⟨-, h1⟩ := h1
      rw [le_div_iff₀ (by norm_num)] at h0 ⊢
      rw [div_le_iff₀ (by norm_num)] at h1 ⊢
      constructor <;> linarith
    have cont : ContinuousOn f (Set.Icc jd (jd + hi)) := by
      have k0 : 0 ≤ r + d := by linarith
      have : LipschitzOnWith ⟨r + d, k0⟩ f (Set.Icc jd (jd + hi)) := by
        refine LipschitzOnWith.of_dist_le_mul fun x hx y hy => ?_
        rw [Real.dist_eq, Real.dist_eq]
        change |f x - f y| ≤ (r + d) * |x - y|
        have e : f x - f y = (f x - f y - r * (x - y)) + r * (x - y) := by ring
        rw [e]
        refine (abs_add_le _ _).trans ((add_le_add (rate x y (near x hx) (near y hy)) le_rfl).trans (le_of_eq ?_))
        rw [abs_mul, abs_of_nonneg (by linarith : 0 ≤ r)]; ring
      exact this.continuousOn
    have g := (abs_le.mp (mean _ _ h1 h0)).1
    rw [show jd + hi - jd = hi by ring] at g
    exact takes_every_angle (by linarith) cont (by linarith) t
  · intro x y hx hy hxy ex ey
    have a := (abs_le.mp (rate y x hy hx)).1
    rw [abs_of_pos (by linarith : 0 < y - x)] at a
    have g := gained_turn ex ey (by nlinarith [mul_pos (sub_pos.mpr hr) (sub_pos.mpr hxy)])
    have b := (abs_le.mp (mean y x hy hx)).2
    by_contra hn
    have : m * (y - x) < m * lo := mul_lt_mul_of_pos_left (by linarith) hm
    linarith

/-- Mean longitude, mean motion and amplitude of a table, all times `10 ^ 11`. -/
def meanOf (p : String) : Option (ℕ × ℕ × ℕ) :=
  match vsopDict.lookup (p, "L") with
  | some c =>
    match head0 c, head1 (tail0 c) with
    | some a, some m => some (a, m, pAmpl 2 (tail1 (tail0 c)))
    | _, _ => none
  | none => none

theorem meanOf_spec {p : String} {a m A : ℕ} (h : meanOf p = some (a, m, A)) :
    ∃ c, vsopDict.lookup (p, "L") = some c ∧
      ∀ t : ℝ, |t| ≤ 2 → |poisson c t - ((a : ℝ) / 10 ^ 11 + m / 10 ^ 11 * t)| ≤ (A : ℝ) / 10 ^ 11 := by
  unfold meanOf at h
  split at h
  · next c hc =>
    split at h
    · next a' m' ha hm =>
      simp only [Option.some.injEq, Prod.mk.injEq] at h
      obtain ⟨rfl, rfl, rfl⟩ := h
      refine ⟨c, hc, fun t ht => ?_⟩
      rw [poisson_eq_pval, pval_head0 ha, pval_head1 hm]
      have := pval_abs (T := 2) (tail1 (tail0 c)) (t := t) (by exact_mod_cast ht)
      convert this using 2
      ring
    · simp at h
  · simp at h

/-- The mean motions and amplitudes, from the tables. -/
def means : List (String × ℕ × ℕ × ℕ) :=
  [("Mercury", 440250710144, 2608814706222746, 50534312624), ("Venus", 317614666774, 1021352943052898, 1932025971),
   ("Earth", 175347045673, 628331966747491, 4083548312), ("Mars", 620347711583, 334085627474342, 23845131234),
   ("Jupiter", 59954691495, 52993480757497, 13272919542), ("Saturn", 87401354029, 21354295595986, 19808546857),
   ("Uranus", 548129294299, 7502543121646, 12565796573), ("Neptune", 531188633047, 3837687716731, 3410321734)]

theorem means_ok : ∀ x ∈ means, meanOf x.1 = some x.2 := by decide +kernel

/-- Everything known of the longitude of a planet within 2000 years. -/
structure Lon (p : String) (r d m A : ℝ) (f : ℝ → ℝ) : Prop where
  value : ∀ jd, vsopDimension vsopDict [jd] p "L" = .ok (.scalar (modpi2 (f jd)))
  rate : ∀ x y, |millennia x| ≤ 2 → |millennia y| ≤ 2 → |f x - f y - r * (x - y)| ≤ d * |x - y|
  mean : ∀ x y, |millennia x| ≤ 2 → |millennia y| ≤ 2 → |f x - f y - m * (x - y)| ≤ 2 * A

theorem lon_of {o : Orbit} (ho : o ∈ orbits2) {a m A : ℕ} (hm : (o.name, a, m, A) ∈ means) :
    ∃ f, Lon o.name (o.motion / 365250) (o.dmotion / 365250) (m / 10 ^ 11 / 365250) (A / 10 ^ 11) f := by
  obtain ⟨cL, cB, cR, hL, -, -, -, h2⟩ := orbitOk_spec (orbits2_ok o ho)
  obtain ⟨c, hc, h3⟩ := meanOf_spec (means_ok _ hm)
  obtain rfl : cL = c := by simpa [hL] using hc
  have e : ∀ x y, millennia x - millennia y = (x - y) / 365250 := fun x y => by unfold millennia; ring
  refine ⟨fun jd => poisson cL (millennia jd), fun jd => ?_, fun x y hx hy => ?_, fun x y hx hy => ?_⟩
  · rw [vsop_dimension_value _ _ _ _ hL]; rfl
  · have := h2 _ _ (by exact_mod_cast hx) (by exact_mod_cast hy)
    rw [e, abs_div, abs_of_pos (by norm_num : (0 : ℝ) < 365250)] at this
    rw [show (o.motion : ℝ) / 365250 * (x - y) = o.motion * ((x - y) / 365250) by ring,
      show (o.dmotion : ℝ) / 365250 * |x - y| = o.dmotion * (|x - y| / 365250) by ring]
    exact this
  · obtain ⟨p1, p2⟩ := abs_le.mp (h3 _ hx)
    obtain ⟨q1, q2⟩ := abs_le.mp (h3 _ hy)
    have k : (m : ℝ) / 10 ^ 11 / 365250 * (x - y) = m / 10 ^ 11 * millennia x - m / 10 ^ 11 * millennia y := by
      rw [← mul_sub, e]; ring
    rw [k, abs_le]
    constructor <;> linarith

/-- The orbit of a planet by name. -/
def orbitNamed (p : String) : Option Orbit := orbits2.find? (fun o => o.name == p)

/-- The numbers of a planet by name. -/
def meanNamed (p : String) : Option (ℕ × ℕ × ℕ) := means.lookup p

theorem lon_named {p : String} {o : Orbit} {a m A : ℕ} (ho : orbitNamed p = some o)
    (hm : meanNamed p = some (a, m, A)) :
    ∃ f, Lon p (o.motion / 365250) (o.dmotion / 365250) (m / 10 ^ 11 / 365250) (A / 10 ^ 11) f := by
  have n : o.name = p := by simpa using List.find?_some ho
  subst n
  exact lon_of (List.mem_of_find?_eq_some ho) (a := a) (by
    obtain ⟨l, r, e, -⟩ := List.lookup_eq_some_iff.mp hm
    rw [e]; simp)

/-- The numbers fit the period. -/
def periodOk (x : String × ℚ × ℚ) : Bool :=
  match orbitNamed x.1, meanNamed x.1 with
  | some o, some (_, m, A) =>
    decide (0 ≤ o.dmotion) && decide (o.dmotion < o.motion) && decide (0 < m) &&
    decide ((6.28318531 : ℚ) + 2 * (A / 10 ^ 11) ≤ m / 10 ^ 11 / 365250 * (x.2.1 + x.2.2)) &&
    decide ((m / 10 ^ 11 / 365250 : ℚ) * (x.2.1 - x.2.2) ≤ 6.28318530 - 2 * (A / 10 ^ 11))
  | _, _ => false

theorem periods_ok : ∀ x ∈ periods, periodOk x = true := by decide +kernel

/-- The numbers fit the synodic period. -/
def synodicOk (x : String × String × ℚ × ℚ) : Bool :=
  match orbitNamed x.1, meanNamed x.1, orbitNamed x.2.1, meanNamed x.2.1 with
  | some o, some (_, m, A), some o', some (_, m', A') =>
    decide (0 ≤ o.dmotion) && decide (0 ≤ o'.dmotion) &&
    decide (o.dmotion + o'.dmotion < o.motion - o'.motion) && decide (m' < m) &&
    decide ((6.28318531 : ℚ) + 2 * (A / 10 ^ 11) + 2 * (A' / 10 ^ 11) ≤
      (m / 10 ^ 11 / 365250 - m' / 10 ^ 11 / 365250) * (x.2.2.1 + x.2.2.2)) &&
    decide ((m / 10 ^ 11 / 365250 - m' / 10 ^ 11 / 365250 : ℚ) * (x.2.2.1 - x.2.2.2) ≤
      6.28318530 - 2 * (A / 10 ^ 11) - 2 * (A' / 10 ^ 11))
  | _, _, _, _ => false

theorem synodics_ok : ∀ x ∈ synodics, synodicOk x = true := by decide +kernel

theorem two_pi_bounds : (6.28318530 : ℝ) < 2 * π ∧ 2 * π < 6.28318531 := by
  have a := Real.pi_gt_d20
  have b := Real.pi_lt_d20
  norm_num at a b ⊢
  constructor <;> linarith

/-- C74: the heliocentric longitude of each planet runs through all angles in its period of
revolution, up to the deviation given. -/
theorem planet_period (p : String) (P d : ℚ) (h : (p, P, d) ∈ periods) :
    Recurs (P - d) (P + d) fun t jd =>
      ∃ l, vsopDimension vsopDict [jd] p "L" = .ok (.scalar l) ∧ Congr (2 * π) l t := by
  have ok := periods_ok _ h
  unfold periodOk at ok
  split at ok
  · next o a m A ho hm =>
    simp only [Bool.and_eq_true, decide_eq_true_eq] at ok
    obtain ⟨⟨⟨⟨h1, h2⟩, h3⟩, h4⟩, h5⟩ := ok
    obtain ⟨f, v, rate, mean⟩ := lon_named ho hm
    have h1' : (0 : ℝ) ≤ o.dmotion := by exact_mod_cast h1
    have h2' : (o.dmotion : ℝ) < o.motion := by exact_mod_cast h2
    have h3' : (0 : ℝ) < m := by exact_mod_cast h3
    have h4' := (Rat.cast_le (K := ℝ)).mpr h4
    have h5' := (Rat.cast_le (K := ℝ)).mpr h5
    push_cast at h4' h5'
    obtain ⟨p1, p2⟩ := two_pi_bounds
    have R := recurs_of_mean (lo := P - d) (hi := P + d) (by positivity)
      (by gcongr) (by positivity) rate mean (by norm_num at h4' p2 ⊢; linarith) (by norm_num at h5' p1 ⊢; linarith)
    intro t
    obtain ⟨R1, R2⟩ := R t
    refine ⟨fun jd j0 j1 => ?_, fun x y hx hy hxy ex ey => ?_⟩
    · obtain ⟨y, y0, y1, c⟩ := R1 jd j0 j1
      exact ⟨y, y0, y1, _, v y, congr_trans (modpi2_spec _).2.2 c⟩
    · obtain ⟨l, e, c⟩ := ex
      obtain ⟨l', e', c'⟩ := ey
      rw [v, Except.ok.injEq, Out.scalar.injEq] at e e'
      subst e e'
      exact R2 x y hx hy hxy (congr_trans (congr_symm (modpi2_spec _).2.2) c)
        (congr_trans (congr_symm (modpi2_spec _).2.2) c')
  · simp at ok

/-- C74: the difference of the heliocentric longitudes of two planets (0: they are in line on the same
side of the Sun) runs through all angles in their synodic period, up to the deviation given. -/
theorem planet_synodic (p q : String) (S d : ℚ) (h : (p, q, S, d) ∈ synodics) :
    Recurs (S - d) (S + d) fun t jd =>
      ∃ l l', vsopDimension vsopDict [jd] p "L" = .ok (.scalar l) ∧
        vsopDimension vsopDict [jd] q "L" = .ok (.scalar l') ∧ Congr (2 * π) (l - l') t := by
  have ok := synodics_ok _ h
  unfold synodicOk at ok
  split at ok
  · next o a m A o' a' m' A' ho hm ho' hm' =>
    simp only [Bool.and_eq_true, decide_eq_true_eq] at ok
    obtain ⟨⟨⟨⟨⟨h0, h1⟩, h2⟩, h3⟩, h4⟩, h5⟩ := ok
    obtain ⟨f, v, rate, mean⟩ := lon_named ho hm
    obtain ⟨f', v', rate', mean'⟩ := lon_named ho' hm'
    have h0' : (0 : ℝ) ≤ o.dmotion := by exact_mod_cast h0
    have h1' : (0 : ℝ) ≤ o'.dmotion := by exact_mod_cast h1
    have h2' : (o.dmotion + o'.dmotion : ℝ) < o.motion - o'.motion := by exact_mod_cast h2
    have h3' : (m' : ℝ) < m := by exact_mod_cast h3
    have h4' := (Rat.cast_le (K := ℝ)).mpr h4
    have h5' := (Rat.cast_le (K := ℝ)).mpr h5
    push_cast at h4' h5'
    obtain ⟨p1, p2⟩ := two_pi_bounds
    have R := recurs_of_mean (f := fun x => f x - f' x) (lo := S - d) (hi := S + d)
      (r := (o.motion - o'.motion) / 365250) (d := (o.dmotion + o'.dmotion) / 365250)
      (m := m / 10 ^ 11 / 365250 - m' / 10 ^ 11 / 365250) (E := 2 * (A / 10 ^ 11) + 2 * (A' / 10 ^ 11))
      (by positivity) (by gcongr) (by
        have : (m' : ℝ) / 10 ^ 11 / 365250 < m / 10 ^ 11 / 365250 := by gcongr
        linarith)
      (fun x y hx hy => by
        have a := abs_le.mp (rate x y hx hy)
        have b := abs_le.mp (rate' x y hx hy)
        rw [abs_le, sub_div, sub_mul, add_div, add_mul]
        constructor <;> linarith [a.1, a.2, b.1, b.2])
      (fun x y hx hy => by
        have a := abs_le.mp (mean x y hx hy)
        have b := abs_le.mp (mean' x y hx hy)
        rw [abs_le, sub_mul]
        constructor <;> linarith [a.1, a.2, b.1, b.2])
      (by norm_num at h4' p2 ⊢; linarith) (by norm_num at h5' p1 ⊢; linarith)
    have cg : ∀ x, Congr (2 * π) (modpi2 (f x) - modpi2 (f' x)) (f x - f' x) := fun x =>
      congr_sub (modpi2_spec _).2.2 (modpi2_spec _).2.2
    intro t
    obtain ⟨R1, R2⟩ := R t
    refine ⟨fun jd j0 j1 => ?_, fun x y hx hy hxy ex ey => ?_⟩
    · obtain ⟨y, y0, y1, c⟩ := R1 jd j0 j1
      exact ⟨y, y0, y1, _, _, v y, v' y, congr_trans (cg y) c⟩
    · obtain ⟨l, k, e, e1, c⟩ := ex
      obtain ⟨l', k', e', e1', c'⟩ := ey
      rw [v, Except.ok.injEq, Out.scalar.injEq] at e e'
      rw [v', Except.ok.injEq, Out.scalar.injEq] at e1 e1'
      subst e e' e1 e1'
      exact R2 x y hx hy hxy (congr_trans (congr_symm (cg x)) c) (congr_trans (congr_symm (cg y)) c')
  · simp at ok

/-- C74: a planet nearer the Sun always moves faster: over any stretch of time within 2000 years of
J2000 it gains on every planet farther out. -/
theorem planets_speed_order (i j : ℕ) (p q : String) (hij : i < j) (hp : knownPlanets[i]? = some p)
    (hq : knownPlanets[j]? = some q) :
    ∃ f g : ℝ → ℝ, (∀ jd, vsopDimension vsopDict [jd] p "L" = .ok (.scalar (modpi2 (f jd)))) ∧
      (∀ jd, vsopDimension vsopDict [jd] q "L" = .ok (.scalar (modpi2 (g jd)))) ∧
      ∀ x y, |millennia x| ≤ 2 → |millennia y| ≤ 2 → x < y → 0 < g y - g x ∧ g y - g x < f y - f x := by
  have pw : orbits2.Pairwise (fun o o' => o'.motion + o'.dmotion < o.motion - o.dmotion) := by decide +kernel
  have len : orbits2.length = 8 := by decide
  have nm : orbits2.map Orbit.name = knownPlanets := orbits_ordered.1.1
  rw [← nm, List.getElem?_map, Option.map_eq_some_iff] at hp hq
  obtain ⟨o, ho, rfl⟩ := hp
  obtain ⟨o', ho', rfl⟩ := hq
  obtain ⟨k1, e1⟩ := List.getElem?_eq_some_iff.mp ho
  obtain ⟨k2, e2⟩ := List.getElem?_eq_some_iff.mp ho'
  rw [List.pairwise_iff_getElem] at pw
  have c := pw i j k1 k2 hij
  rw [e1, e2] at c
  have c' : (o'.motion + o'.dmotion : ℝ) < o.motion - o.dmotion := by exact_mod_cast c
  obtain ⟨⟨f, vf, rf⟩, -⟩ := planets_advance.1 o (List.mem_of_getElem? ho)
  obtain ⟨⟨g, vg, rg⟩, pg⟩ := planets_advance.1 o' (List.mem_of_getElem? ho')
  have pg' : (0 : ℝ) < o'.motion - o'.dmotion := by exact_mod_cast pg
  refine ⟨f, g, vf, vg, fun x y hx hy hxy => ?_⟩
  have a := (rf x y (by exact_mod_cast hx) (by exact_mod_cast hy) hxy.le).1
  have b := rg x y (by exact_mod_cast hx) (by exact_mod_cast hy) hxy.le
  have n : (0 : ℝ) < (y - x) / 365250 := div_pos (by linarith) (by norm_num)
  have k := mul_lt_mul_of_pos_right c' n
  exact ⟨(mul_pos pg' n).trans_le b.1, by linarith [b.2]⟩

/-- The hypotheses are met: every planet has a period, and the times around J2000 are in range. -/
example : periods.map Prod.fst = knownPlanets := by decide
example : ∀ p ∈ knownPlanets, ∀ q ∈ knownPlanets, p = q ∨
    ∃ x ∈ synodics, (x.1, x.2.1) = (p, q) ∨ (x.1, x.2.1) = (q, p) := by decide
example : |millennia 2451545| ≤ 2 ∧ |millennia (2451545 + (583.921 + 11.2))| ≤ 2 := by
  constructor <;> norm_num [millennia, abs_le]

end Verif

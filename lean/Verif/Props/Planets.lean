import Verif.Lemmas.Poisson
import Verif.Model.Sun
import Verif.Spec.Orbits

/-!
# C39-C42, C56, C61: the planetary theory
-/

namespace Verif
open Real

theorem jcent_millennia (jd : ℝ) : jcent jd / 10 = millennia jd := by
  unfold jcent millennia; ring

/-! ### C39 -/

/-- The planets and coordinates with a table. -/
def knownPlanets : List String :=
  ["Mercury", "Venus", "Earth", "Mars", "Jupiter", "Saturn", "Uranus", "Neptune"]

/-- C39: the dictionary has a table for exactly the eight planets and the three coordinates. -/
theorem vsopDict_lookup_iff (planet dim : String) :
    (vsopDict.lookup (planet, dim)).isSome ↔ planet ∈ knownPlanets ∧ dim ∈ ["L", "B", "R"] := by
  rw [List.lookup_isSome_iff]
  simp only [vsopDict, knownPlanets, List.mem_cons, List.not_mem_nil, or_false, exists_eq_or_imp,
    Prod.mk.injEq, beq_iff_eq]
  simp only [exists_eq_left]
  constructor
  · rintro (⟨rfl, rfl⟩ | ⟨rfl, rfl⟩ | ⟨rfl, rfl⟩ | ⟨rfl, rfl⟩ | ⟨rfl, rfl⟩ | ⟨rfl, rfl⟩ |
      ⟨rfl, rfl⟩ | ⟨rfl, rfl⟩ | ⟨rfl, rfl⟩ | ⟨rfl, rfl⟩ | ⟨rfl, rfl⟩ | ⟨rfl, rfl⟩ |
      ⟨rfl, rfl⟩ | ⟨rfl, rfl⟩ | ⟨rfl, rfl⟩ | ⟨rfl, rfl⟩ | ⟨rfl, rfl⟩ | ⟨rfl, rfl⟩ |
      ⟨rfl, rfl⟩ | ⟨rfl, rfl⟩ | ⟨rfl, rfl⟩ | ⟨rfl, rfl⟩ | ⟨rfl, rfl⟩ | ⟨rfl, rfl⟩) <;> simp
  · rintro ⟨rfl | rfl | rfl | rfl | rfl | rfl | rfl | rfl, rfl | rfl | rfl⟩ <;> simp

/-- C39: for a single time the result is the value of the Poisson series, the longitude reduced to
`[0, 2π)`. -/
theorem vsop_dimension_value (jd : ℝ) (planet dim : String) (c : List (List Term))
    (h : vsopDict.lookup (planet, dim) = some c) :
    vsopDimension vsopDict [jd] planet dim = .ok (.scalar
      (if dim = "L" then modpi2 (poisson c (millennia jd)) else poisson c (millennia jd))) := by
  unfold vsopDimension
  simp only [h]
  rw [vsopLoop_eq _ _ _ _ _ rfl]
  simp only [List.map_cons, List.map_nil, pvalArr_singleton, jcent_millennia, zero_add, one_mul,
    poisson_eq_pval]
  split_ifs <;> rfl

/-- C39: anything else raises `KeyError`. -/
theorem vsop_dimension_unknown (jd : List ℝ) (planet dim : String) :
    (¬ (planet ∈ knownPlanets ∧ dim ∈ ["L", "B", "R"])) ↔
      vsopDimension vsopDict jd planet dim = .error (.KeyError planet) := by
  rw [← vsopDict_lookup_iff]
  unfold vsopDimension
  rcases h : vsopDict.lookup (planet, dim) with _ | c <;> simp

/-! ### C40 -/

/-- C40: for an array of times, every entry is computed from the sums of the series over all the
times. -/
theorem vsop_dimension_array (jds : List ℝ) (planet dim : String) (c : List (List Term))
    (h : vsopDict.lookup (planet, dim) = some c) :
    vsopDimension vsopDict jds planet dim = .ok (scalarIfOne (jds.map fun jd =>
      let x := ∑ i ∈ Finset.range c.length, millennia jd ^ i *
        (jds.map fun j => ((c.getD i []).map fun r => vsopTerm r (millennia j)).sum).sum
      if dim = "L" then modpi2 x else x)) := by
  have e : ∀ (c : List (List Term)) (ts : List ℝ) (t : ℝ), pvalArr c ts t =
      ∑ i ∈ Finset.range c.length, t ^ i * (ts.map fun u => seriesVal (c.getD i []) u).sum := by
    intro c ts t
    induction c with
    | nil => simp [pvalArr]
    | cons s c ih =>
      rw [List.length_cons, Finset.sum_range_succ', pvalArr, ih, Finset.mul_sum, add_comm]
      congr 1
      · refine Finset.sum_congr rfl fun i _ => ?_
        rw [List.getD_cons_succ, pow_succ]; ring
      · simp
  unfold vsopDimension
  simp only [h]
  rw [vsopLoop_eq _ _ _ _ _ rfl]
  simp only [e, jcent_millennia, zero_add, one_mul]
  split_ifs <;> simp [List.map_map, Function.comp_def, seriesVal]

theorem vsop_dimension_pval (jds : List ℝ) (planet dim : String) (c : List (List Term))
    (h : vsopDict.lookup (planet, dim) = some c) :
    vsopDimension vsopDict jds planet dim = .ok (scalarIfOne
      (if dim = "L" then
        (jds.map fun jd => pvalArr c (jds.map millennia) (millennia jd)).map modpi2
      else jds.map fun jd => pvalArr c (jds.map millennia) (millennia jd))) := by
  unfold vsopDimension
  simp only [h]
  rw [vsopLoop_eq _ _ _ _ _ rfl]
  simp only [jcent_millennia, zero_add, one_mul, List.map_map, Function.comp_def]

/-- C40: for `n` equal times the radius is multiplied by `n`. -/
theorem vsop_dimension_repeated (jd : ℝ) (n : ℕ) (planet dim : String) (c : List (List Term))
    (h : vsopDict.lookup (planet, dim) = some c) (hd : dim ≠ "L") :
    vsopDimension vsopDict (List.replicate n jd) planet dim =
      .ok (scalarIfOne (List.replicate n (n * poisson c (millennia jd)))) := by
  unfold vsopDimension
  simp only [h, if_neg hd]
  rw [vsopLoop_eq _ _ _ _ _ rfl]
  simp only [List.map_replicate, pvalArr_replicate, jcent_millennia, zero_add, one_mul,
    poisson_eq_pval]

/-! ### C41, C61 -/

/-- Checks all the numbers of an orbit against its tables, by integer arithmetic. -/
def orbitOk (T : ℕ) (o : Orbit) : Bool :=
  match vsopDict.lookup (o.name, "L"), vsopDict.lookup (o.name, "B"), vsopDict.lookup (o.name, "R") with
  | some cL, some cB, some cR =>
    match head0 cR, head1 cL with
    | some a, some m =>
      decide (o.rmin * 10 ^ 11 ≤ a - pAmpl T (tail0 cR)) &&
      decide (a + pAmpl T (tail0 cR) ≤ o.rmax * 10 ^ 11) &&
      decide (pAmpl T cB ≤ o.bmax * 10 ^ 11) &&
      decide ((o.motion - o.dmotion) * 10 ^ 22 ≤ m * 10 ^ 11 - pSpeed T (tail1 cL)) &&
      decide (m * 10 ^ 11 + pSpeed T (tail1 cL) ≤ (o.motion + o.dmotion) * 10 ^ 22)
    | _, _ => false
  | _, _, _ => false

theorem orbits2_ok : ∀ o ∈ orbits2, orbitOk 2 o = true := by decide +kernel
theorem orbits6_ok : ∀ o ∈ orbits6, orbitOk 6 o = true := by decide +kernel

theorem orbitOk_spec {T : ℕ} {o : Orbit} (h : orbitOk T o = true) :
    ∃ cL cB cR, vsopDict.lookup (o.name, "L") = some cL ∧ vsopDict.lookup (o.name, "B") = some cB ∧
      vsopDict.lookup (o.name, "R") = some cR ∧
      (∀ t : ℝ, |t| ≤ T → (o.rmin : ℝ) ≤ poisson cR t ∧ poisson cR t ≤ o.rmax ∧
        |poisson cB t| ≤ o.bmax) ∧
      ∀ t u : ℝ, |t| ≤ T → |u| ≤ T →
        |poisson cL t - poisson cL u - o.motion * (t - u)| ≤ o.dmotion * |t - u| := by
  unfold orbitOk at h
  split at h
  · next cL cB cR hL hB hR =>
    split at h
    · next a m ha hm =>
      simp only [Bool.and_eq_true, decide_eq_true_eq] at h
      obtain ⟨⟨⟨⟨h1, h2⟩, h3⟩, h4⟩, h5⟩ := h
      have h1 : (o.rmin * 10 ^ 11 : ℝ) ≤ a - pAmpl T (tail0 cR) := by exact_mod_cast h1
      have h2 : (a + pAmpl T (tail0 cR) : ℝ) ≤ o.rmax * 10 ^ 11 := by exact_mod_cast h2
      have h3 : (pAmpl T cB : ℝ) ≤ o.bmax * 10 ^ 11 := by exact_mod_cast h3
      have h4 : ((o.motion - o.dmotion) * 10 ^ 22 : ℝ) ≤ m * 10 ^ 11 - pSpeed T (tail1 cL) := by
        exact_mod_cast h4
      have h5 : (m * 10 ^ 11 + pSpeed T (tail1 cL) : ℝ) ≤ (o.motion + o.dmotion) * 10 ^ 22 := by
        exact_mod_cast h5
      refine ⟨cL, cB, cR, hL, hB, hR, fun t ht => ?_, fun t u ht hu => ?_⟩
      · simp only [poisson_eq_pval]
        obtain ⟨n1, n2⟩ := abs_le.mp (pval_near ha le_rfl ht)
        refine ⟨by linarith, by linarith, (pval_abs cB ht).trans ?_⟩
        rw [div_le_iff₀ (by positivity)]; exact h3
      · simp only [poisson_eq_pval]
        have r := pval_rate hm le_rfl ht hu
        have k1 : (m : ℝ) / 10 ^ 11 - o.motion ≤ o.dmotion - pSpeed T (tail1 cL) / 10 ^ 22 := by
          linarith
        have k2 : -(o.dmotion - pSpeed T (tail1 cL) / 10 ^ 22) ≤ (m : ℝ) / 10 ^ 11 - o.motion := by
          linarith
        have k3 := abs_le.mpr ⟨k2, k1⟩
        have e : pval cL t - pval cL u - o.motion * (t - u) =
          (pval cL t - pval cL u - m / 10 ^ 11 * (t - u)) + (m / 10 ^ 11 - o.motion) * (t - u) := by
          ring
        rw [e]
        refine (abs_add_le _ _).trans ?_
        rw [abs_mul]
        have := mul_le_mul_of_nonneg_right k3 (abs_nonneg (t - u))
        linarith
    · simp at h
  · simp at h

/-- C41: what the library returns for a planet with the orbit `o`, at every time `jd` within `T`
millennia of J2000. -/
def Physical (T : ℕ) (o : Orbit) : Prop :=
  ∀ jd : ℝ, |millennia jd| ≤ T → ∃ L B R : ℝ,
    vsopDimension3 vsopDict [jd] o.name = .ok (.scalar L, .scalar B, .scalar R) ∧
    0 ≤ L ∧ L < 2 * π ∧ |B| ≤ o.bmax ∧ o.rmin ≤ R ∧ R ≤ o.rmax

theorem vsop_dimension3_value (jd : ℝ) (planet : String) (cL cB cR : List (List Term))
    (hL : vsopDict.lookup (planet, "L") = some cL) (hB : vsopDict.lookup (planet, "B") = some cB)
    (hR : vsopDict.lookup (planet, "R") = some cR) :
    vsopDimension3 vsopDict [jd] planet = .ok (.scalar (modpi2 (poisson cL (millennia jd))),
      .scalar (poisson cB (millennia jd)), .scalar (poisson cR (millennia jd))) := by
  unfold vsopDimension3
  rw [vsop_dimension_value _ _ _ _ hL, vsop_dimension_value _ _ _ _ hB,
    vsop_dimension_value _ _ _ _ hR]
  rfl

theorem physical_of_ok {T : ℕ} {o : Orbit} (h : orbitOk T o = true) : Physical T o := by
  obtain ⟨cL, cB, cR, hL, hB, hR, h1, -⟩ := orbitOk_spec h
  intro jd hj
  obtain ⟨r1, r2, r3⟩ := h1 _ hj
  exact ⟨_, _, _, vsop_dimension3_value jd _ _ _ _ hL hB hR, (modpi2_spec _).1,
    (modpi2_spec _).2.1, r3, r1, r2⟩

/-- C41: between 2000 years before and 2000 years after J2000. -/
theorem planets_physical_2 : ∀ o ∈ orbits2, Physical 2 o := fun o h =>
  physical_of_ok (orbits2_ok o h)

/-- C41: between 6000 years before and 6000 years after J2000. -/
theorem planets_physical_6 : ∀ o ∈ orbits6, Physical 6 o := fun o h =>
  physical_of_ok (orbits6_ok o h)

/-- C41: the tables of bounds cover the eight planets, every distance is positive, the distances are
ordered, and the latitudes stay below 0.21 (12 degrees). -/
theorem orbits_ordered :
    (orbits2.map Orbit.name = knownPlanets ∧ orbits6.map Orbit.name = knownPlanets) ∧
    orbits2.IsChain (fun o p => o.rmax < p.rmin) ∧ orbits6.IsChain (fun o p => o.rmax < p.rmin) ∧
    (∀ o ∈ orbits2, 0 < o.rmin ∧ o.bmax < 0.18) ∧ ∀ o ∈ orbits6, 0 < o.rmin ∧ o.bmax < 0.21 := by
  decide +kernel

/-- C41: at any time within 6000 years of J2000 an inner planet (earlier in the list) is closer to
the Sun than an outer one. -/
theorem planets_distance_order (jd : ℝ) (hj : |millennia jd| ≤ 6) (i j : ℕ) (p q : String)
    (hij : i < j) (hp : knownPlanets[i]? = some p) (hq : knownPlanets[j]? = some q) :
    ∃ r s : ℝ, vsopDimension vsopDict [jd] p "R" = .ok (.scalar r) ∧
      vsopDimension vsopDict [jd] q "R" = .ok (.scalar s) ∧ 0 < r ∧ r < s := by
  have key : ∀ {i : ℕ} {p : String}, knownPlanets[i]? = some p → ∃ o, orbits6[i]? = some o ∧
      o.name = p := by
    intro i p h
    rw [← orbits_ordered.1.2, List.getElem?_map, Option.map_eq_some_iff] at h
    exact h
  obtain ⟨o, ho, rfl⟩ := key hp
  obtain ⟨o', ho', rfl⟩ := key hq
  have mo := List.mem_of_getElem? ho
  have mo' := List.mem_of_getElem? ho'
  obtain ⟨cL, cB, cR, hL, hB, hR, h1, -⟩ := orbitOk_spec (orbits6_ok o mo)
  obtain ⟨cL', cB', cR', hL', hB', hR', h1', -⟩ := orbitOk_spec (orbits6_ok o' mo')
  refine ⟨_, _, vsop_dimension_value _ _ _ _ hR, vsop_dimension_value _ _ _ _ hR', ?_, ?_⟩
  · rw [if_neg (by decide)]
    have : (0 : ℝ) < o.rmin := by exact_mod_cast (orbits_ordered.2.2.2.2 o mo).1
    exact this.trans_le (h1 _ hj).1
  · rw [if_neg (by decide), if_neg (by decide)]
    have c : o.rmax < o'.rmin := by
      have ok : ∀ (l : List Orbit), (∀ o ∈ l, o.rmin ≤ o.rmax) → l.IsChain (fun o p => o.rmax < p.rmin) →
          l.Pairwise (fun o p => o.rmax < p.rmin) := by
        intro l hl hc
        have : l.Pairwise (fun o p : Orbit => o.rmin ≤ o.rmax ∧ o.rmax < p.rmin ∧ p.rmin ≤ p.rmax) := by
          haveI : Trans (fun o p : Orbit => o.rmin ≤ o.rmax ∧ o.rmax < p.rmin ∧ p.rmin ≤ p.rmax)
              (fun o p : Orbit => o.rmin ≤ o.rmax ∧ o.rmax < p.rmin ∧ p.rmin ≤ p.rmax)
              (fun o p : Orbit => o.rmin ≤ o.rmax ∧ o.rmax < p.rmin ∧ p.rmin ≤ p.rmax) :=
            ⟨fun a b => ⟨a.1, by linarith [a.2.1, a.2.2, b.2.1], b.2.2⟩⟩
          refine List.IsChain.pairwise ?_
          rw [List.isChain_iff_getElem] at hc ⊢
          intro i hi
          exact ⟨hl _ (List.getElem_mem _), hc i hi, hl _ (List.getElem_mem _)⟩
        exact this.imp fun a => a.2.1
      have pw := ok orbits6 (by decide +kernel) orbits_ordered.2.2.1
      rw [List.pairwise_iff_getElem] at pw
      obtain ⟨k1, e1⟩ := List.getElem?_eq_some_iff.mp ho
      obtain ⟨k2, e2⟩ := List.getElem?_eq_some_iff.mp ho'
      have := pw i j k1 k2 hij
      rwa [e1, e2] at this
    have c' : (o.rmax : ℝ) < o'.rmin := by exact_mod_cast c
    linarith [(h1 _ hj).2.1, (h1' _ hj).1]

/-- C61: what the library returns as longitude of a planet advances with time.  Between the times
`j < j'` in range it advances by the mean motion, up to the given deviation, and whole turns. -/
def Advances (T : ℕ) (o : Orbit) : Prop :=
  ∃ lon : ℝ → ℝ, (∀ jd, vsopDimension vsopDict [jd] o.name "L" = .ok (.scalar (modpi2 (lon jd)))) ∧
    ∀ j j' : ℝ, |millennia j| ≤ T → |millennia j'| ≤ T → j ≤ j' →
      (o.motion - o.dmotion) * ((j' - j) / 365250) ≤ lon j' - lon j ∧
      lon j' - lon j ≤ (o.motion + o.dmotion) * ((j' - j) / 365250)

theorem advances_of_ok {T : ℕ} {o : Orbit} (h : orbitOk T o = true) : Advances T o := by
  obtain ⟨cL, cB, cR, hL, hB, hR, -, h2⟩ := orbitOk_spec h
  refine ⟨fun jd => poisson cL (millennia jd), fun jd => ?_, fun j j' hj hj' hle => ?_⟩
  · rw [vsop_dimension_value _ _ _ _ hL]; rfl
  · have e : millennia j' - millennia j = (j' - j) / 365250 := by unfold millennia; ring
    obtain ⟨a, b⟩ := abs_le.mp (h2 _ _ hj' hj)
    have n : (0 : ℝ) ≤ (j' - j) / 365250 := div_nonneg (by linarith) (by norm_num)
    rw [e, abs_of_nonneg n] at a b
    constructor <;> linarith

/-- C61: all planets move in the same sense, without ever standing still. -/
theorem planets_advance :
    (∀ o ∈ orbits2, Advances 2 o ∧ 0 < o.motion - o.dmotion) ∧
    ∀ o ∈ orbits6, Advances 6 o ∧ 0 < o.motion - o.dmotion := by
  have h : (∀ o ∈ orbits2, 0 < o.motion - o.dmotion) ∧ ∀ o ∈ orbits6, 0 < o.motion - o.dmotion := by
    decide +kernel
  exact ⟨fun o ho => ⟨advances_of_ok (orbits2_ok o ho), h.1 o ho⟩,
    fun o ho => ⟨advances_of_ok (orbits6_ok o ho), h.2 o ho⟩⟩

/-! ### C40: the array case is wrong for every array -/

theorem lookup_earth : vsopDict.lookup ("Earth", "L") = some Data.earthL ∧
    vsopDict.lookup ("Earth", "B") = some Data.earthB ∧
    vsopDict.lookup ("Earth", "R") = some Data.earthR := by
  unfold vsopDict
  simp only [List.lookup, show ∀ a b c d : String, ((a, b) == (c, d)) = (a == c && b == d) from
    fun _ _ _ _ => rfl]
  simp

/-- C40: for every array of at least two times within 2000 years of J2000, every entry of the
array of distances between the Sun and the Earth is more than 0.95 times the number of times,
whereas the true distances are below 1.0195. -/
theorem vsop_dimension_array_wrong (jds : List ℝ) (hn : 2 ≤ jds.length)
    (hj : ∀ jd ∈ jds, |millennia jd| ≤ 2) :
    ∃ l : List ℝ, vsopDimension vsopDict jds "Earth" "R" = .ok (.arr l) ∧ l.length = jds.length ∧
      ∀ x ∈ l, 0.95 * (jds.length : ℝ) < x := by
  have hs : ∀ (ts : List ℝ) (c : List (List Term)) (t : ℝ), (∀ u ∈ ts, |u| ≤ 2) → |t| ≤ 2 →
      |pvalArr c ts t| ≤ ts.length * (pAmpl 2 c / 10 ^ 11 : ℝ) := by
    intro ts c t hts ht
    induction c with
    | nil => simp [pvalArr, pAmpl]
    | cons s c ih =>
      have a : |(ts.map (seriesVal s)).sum| ≤ ts.length * (ampl s / 10 ^ 11 : ℝ) := by
        clear hts ih
        induction ts with
        | nil => simp
        | cons u ts ih2 =>
          rw [List.map_cons, List.sum_cons, List.length_cons]
          refine (abs_add_le _ _).trans ((add_le_add (seriesVal_abs s u) ih2).trans (le_of_eq ?_))
          push_cast; ring
      rw [pvalArr, pAmpl]
      refine (abs_add_le _ _).trans ?_
      rw [abs_mul]
      have b : |t| * |pvalArr c ts t| ≤ 2 * (ts.length * (pAmpl 2 c / 10 ^ 11 : ℝ)) :=
        mul_le_mul ht ih (abs_nonneg _) (by norm_num)
      refine (add_le_add a b).trans (le_of_eq ?_)
      push_cast; ring
  have hh : ∀ (ts : List ℝ) (c : List (List Term)) (a : ℕ) (t : ℝ), head0 c = some a →
      pvalArr c ts t = ts.length * (a / 10 ^ 11 : ℝ) + pvalArr (tail0 c) ts t := by
    intro ts c a t h
    unfold head0 at h
    split at h
    · next b s c' =>
      rw [Option.some.injEq] at h
      subst h
      have : ∀ ts : List ℝ, (ts.map (seriesVal ((b, 0, 0) :: s))).sum =
          ts.length * (b / 10 ^ 11 : ℝ) + (ts.map (seriesVal s)).sum := by
        intro ts
        induction ts with
        | nil => simp
        | cons u ts ih =>
          rw [List.map_cons, List.sum_cons, ih, List.map_cons, List.sum_cons, List.length_cons]
          simp [seriesVal, vsopTerm]; ring
      rw [pvalArr, tail0, pvalArr, this]; ring
    · simp at h
  refine ⟨jds.map fun jd => pvalArr Data.earthR (jds.map millennia) (millennia jd), ?_,
    List.length_map _, ?_⟩
  · rw [vsop_dimension_pval _ _ _ _ lookup_earth.2.2, if_neg (by decide)]
    generalize Data.earthR = c
    obtain _ | ⟨a, _ | ⟨b, l⟩⟩ := jds
    · simp at hn
    · simp at hn
    · rfl
  · intro x hx
    obtain ⟨jd, hm, rfl⟩ := List.mem_map.mp hx
    have nums : head0 Data.earthR = some 100013988799 ∧ pAmpl 2 (tail0 Data.earthR) ≤ 2 * 10 ^ 9 := by
      decide +kernel
    rw [hh _ _ _ _ nums.1]
    have b := hs (jds.map millennia) (tail0 Data.earthR) (millennia jd)
      (by intro u hu; obtain ⟨j, hj1, rfl⟩ := List.mem_map.mp hu; exact hj j hj1) (hj jd hm)
    have n2 : (pAmpl 2 (tail0 Data.earthR) : ℝ) ≤ 2 * 10 ^ 9 := by exact_mod_cast nums.2
    rw [List.length_map] at *
    have l0 : (2 : ℝ) ≤ jds.length := by exact_mod_cast hn
    have b1 := (abs_le.mp b).1
    clear b hx nums
    generalize (pAmpl 2 (tail0 Data.earthR) : ℝ) = P at *
    generalize pvalArr (tail0 Data.earthR) (jds.map millennia) (millennia jd) = Q at *
    have b2 : (jds.length : ℝ) * (P / 10 ^ 11) ≤ jds.length * 0.02 := by
      refine mul_le_mul_of_nonneg_left ?_ (by linarith)
      rw [div_le_iff₀ (by positivity)]; norm_num at n2 ⊢; linarith
    push_cast
    norm_num at b2 ⊢
    nlinarith

/-! ### C42 -/

/-- C42: the position of the Sun for a single time. -/
theorem sun_dimension3_value (jd : ℝ) :
    sunDimension3 vsopDict [jd] = .ok
      (.scalar (modpi2 (poisson Data.earthL (millennia jd) + π)),
       .scalar (-poisson Data.earthB (millennia jd)), .scalar (poisson Data.earthR (millennia jd))) := by
  unfold sunDimension3 sunDimension
  rw [vsop_dimension_value _ _ _ _ lookup_earth.1, vsop_dimension_value _ _ _ _ lookup_earth.2.1,
    vsop_dimension_value _ _ _ _ lookup_earth.2.2]
  have : modpi2 (modpi2 (poisson Data.earthL (millennia jd)) + π) =
      modpi2 (poisson Data.earthL (millennia jd) + π) :=
    modpi2_congr (congr_add_right _ (modpi2_spec _).2.2)
  rw [← this]
  rfl

/-- C42: seen from the Earth the Sun stands at the same distance, in the direction opposite to that
of the Earth seen from the Sun. -/
theorem sun_opposite_earth (jd : ℝ) :
    ∃ L B R l b r : ℝ,
      vsopDimension3 vsopDict [jd] "Earth" = .ok (.scalar L, .scalar B, .scalar R) ∧
      sunDimension3 vsopDict [jd] = .ok (.scalar l, .scalar b, .scalar r) ∧
      r = R ∧ 0 ≤ l ∧ l < 2 * π ∧
      (direction l b).x = -(direction L B).x ∧ (direction l b).y = -(direction L B).y ∧
      (direction l b).z = -(direction L B).z := by
  refine ⟨_, _, _, _, _, _, vsop_dimension3_value jd _ _ _ _ lookup_earth.1 lookup_earth.2.1
    lookup_earth.2.2, sun_dimension3_value jd, rfl, (modpi2_spec _).1, (modpi2_spec _).2.1, ?_⟩
  simp only [direction, cos_modpi2, sin_modpi2, Real.cos_add_pi, Real.sin_add_pi, cos_neg, sin_neg]
  refine ⟨by ring, by ring, trivial⟩

/-- C42: an unknown coordinate raises `KeyError`. -/
theorem sun_dimension_unknown (jd : List ℝ) (dim : String) (h : dim ∉ ["L", "B", "R"]) :
    sunDimension vsopDict jd dim = .error (.KeyError "Earth") := by
  unfold sunDimension
  rw [(vsop_dimension_unknown jd "Earth" dim).mp (by simp only [not_and]; exact fun _ => h)]
  rfl

/-! ### C56 -/

/-- Creating any number of objects. -/
def construct (n : ℕ) (s : VsopState) : VsopState := vsopInit^[n] s

/-- C56: once one object has been created, the shared table is that of the data module, and creating
more objects does not change it. -/
theorem vsop_shared_table (n : ℕ) :
    (construct (n + 1) vsopImport).planets = vsopDict ∧
    construct (n + 1) vsopImport = construct 1 vsopImport := by
  have e : ∀ n, construct (n + 1) vsopImport = ⟨false, vsopDict⟩ := by
    intro n
    induction n with
    | zero => rfl
    | succ n ih =>
      unfold construct at ih ⊢
      rw [Function.iterate_succ', Function.comp_apply, ih]
      rfl
  exact ⟨by rw [e], by rw [e, e 0]⟩

/-- C56: so a later object computes what the first one computes. -/
theorem vsop_instances_agree (n m : ℕ) (jd : List ℝ) (planet dim : String) :
    vsopDimension (construct (n + 1) vsopImport).planets jd planet dim =
      vsopDimension (construct (m + 1) vsopImport).planets jd planet dim := by
  rw [(vsop_shared_table n).1, (vsop_shared_table m).1]

/-- C56: before any object has been created the table is empty. -/
theorem vsop_before_construction (jd : List ℝ) (planet dim : String) :
    vsopDimension vsopImport.planets jd planet dim = .error (.KeyError planet) := rfl

/-! ### The hypotheses are met -/

example : |millennia 2451545| ≤ 2 := by norm_num [millennia]
example : ∀ jd ∈ [(2451545 : ℝ), 2451546], |millennia jd| ≤ 2 := by
  intro jd h
  simp only [List.mem_cons, List.not_mem_nil, or_false] at h
  rcases h with rfl | rfl <;> norm_num [millennia, abs_of_nonneg]
example : ∃ o ∈ orbits2, o.name = "Earth" := 
  ⟨⟨"Earth", 0.9808, 1.0195, 0.00001, 6283.32, 249⟩, by simp [orbits2], rfl⟩

end Verif

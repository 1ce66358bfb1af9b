import Verif.Model.NumpyMoon
import Verif.Props.NumpyArrays
import Verif.Props.EquinoxPublished

/-!
# C92: array arguments of the Moon, the nutation, sidereal time, Delta T and the equinoxes
-/

namespace Verif
open Real Spec

/-! ### Sums over a table -/

theorem npFold_sio {α ρ : Type} (l : List α) (term : ρ → Except PyErr (Out ℝ)) (g : ρ → α → ℝ)
    (h : ∀ r, term r = .ok (scalarIfOne (l.map (g r)))) (rows : List ρ) (hr : rows ≠ []) :
    npFold term rows = .ok (scalarIfOne (l.map fun x => rows.foldl (fun acc r => acc + g r x) 0)) := by
  have key : ∀ (rows : List ρ) (f : α → ℝ), rows.foldlM (fun acc r => np2 (· + ·) acc (scalarIfOne (l.map (g r))))
      (scalarIfOne (l.map f)) =
      .ok (scalarIfOne (l.map fun x => rows.foldl (fun acc r => acc + g r x) (f x))) := by
    intro rows
    induction rows with
    | nil => intro f; rfl
    | cons r rows ih =>
      intro f
      simp only [List.foldlM_cons, bind, Except.bind, np2_sio, List.foldl_cons]
      exact ih _
  rcases rows with _ | ⟨r, rows⟩
  · exact absurd rfl hr
  · simp only [npFold, List.foldlM_cons, h, bind, Except.bind, np2_scalar_left, np1_sio, List.foldl_cons]
    exact key rows _

theorem npAngle_sio {α : Type} (l : List α) (f : α → ℝ) (c : ℝ) (cs : List ℝ) :
    npAngle (c :: cs) (scalarIfOne (l.map f)) = .ok (scalarIfOne (l.map fun x => modpi2 (polyR (c :: cs) (f x)))) := by
  simp only [npAngle, npPoly_sio, bind, Except.bind, np1_sio]

/-! ### The nutation and the obliquity -/

/-- C92. `nutation_in_longitude` of an array is elementwise. -/
theorem nutation_in_longitude_arrays (jds : List ℝ) :
    npNutationInLongitude jds = .ok (scalarIfOne (jds.map nutationInLongitude)) := by
  simp only [npNutationInLongitude, npJcent, kD, kM, kM1, kF, ko, npAngle_sio, bind, Except.bind]
  rw [npFold_sio jds _ (fun r jd =>
    (r.2.2.2.2.2.1 / 10000 + r.2.2.2.2.2.2.1 / 100000 * jcent jd) *
      sin (modpi2 (polyR kD (jcent jd)) * r.1 + modpi2 (polyR kM (jcent jd)) * r.2.1 +
        modpi2 (polyR kM1 (jcent jd)) * r.2.2.1 + modpi2 (polyR kF (jcent jd)) * r.2.2.2.1 +
        modpi2 (polyR ko (jcent jd)) * r.2.2.2.2.1)) ?_ _ (by decide)]
  · simp only [np1_sio]
    rfl
  · rintro ⟨tD, tM, tM1, tF, tO, k, kT, e, eT⟩
    simp only [npNutTerm, np1_sio, np2_sio, bind, Except.bind]
    rfl

/-- C92. `nutation_in_obliquity` likewise. -/
theorem nutation_in_obliquity_arrays (jds : List ℝ) :
    npNutationInObliquity jds = .ok (scalarIfOne (jds.map nutationInObliquity)) := by
  simp only [npNutationInObliquity, npJcent, kD, kM, kM1, kF, ko, npAngle_sio, bind, Except.bind]
  rw [npFold_sio jds _ (fun r jd =>
    (r.2.2.2.2.2.2.2.1 / 10000 + r.2.2.2.2.2.2.2.2 / 100000 * jcent jd) *
      cos (modpi2 (polyR kD (jcent jd)) * r.1 + modpi2 (polyR kM (jcent jd)) * r.2.1 +
        modpi2 (polyR kM1 (jcent jd)) * r.2.2.1 + modpi2 (polyR kF (jcent jd)) * r.2.2.2.1 +
        modpi2 (polyR ko (jcent jd)) * r.2.2.2.2.1)) ?_ _ (by decide)]
  · simp only [np1_sio]
    rfl
  · rintro ⟨tD, tM, tM1, tF, tO, k, kT, e, eT⟩
    simp only [npNutTerm, np1_sio, np2_sio, bind, Except.bind]
    rfl

/-- C92. -/
theorem obliquity_arrays (jds : List ℝ) : npObliquity jds = .ok (scalarIfOne (jds.map obliquity)) := by
  simp only [npObliquity, npJcent, el0, npPoly_sio]
  rfl

/-- C92. -/
theorem obliquity_hi_arrays (jds : List ℝ) : npObliquityHi jds = .ok (scalarIfOne (jds.map obliquityHi)) := by
  simp only [npObliquityHi, npJcent, el1, np1_sio, npPoly_sio]
  rfl

/-! ### The Moon -/

theorem npLunarTerm_sio (jds : List ℝ) (trig : ℝ → ℝ) (tD tM tM1 tF k : ℤ) :
    npLunarTerm trig (scalarIfOne (jds.map fun jd => modpi2 (polyR kD (jcent jd))))
      (scalarIfOne (jds.map fun jd => modpi2 (polyR kM (jcent jd))))
      (scalarIfOne (jds.map fun jd => modpi2 (polyR kM1 (jcent jd))))
      (scalarIfOne (jds.map fun jd => modpi2 (polyR kF (jcent jd))))
      (scalarIfOne (jds.map fun jd => (lunarConstants (jcent jd)).E))
      (scalarIfOne (jds.map fun jd => (lunarConstants (jcent jd)).E2)) tD tM tM1 tF k =
    .ok (scalarIfOne (jds.map fun jd => let c := lunarConstants (jcent jd)
      k * lunarFactor c tM * trig (tD * c.D + tM * c.M + tM1 * c.M1 + tF * c.F))) := by
  simp only [npLunarTerm, np1_sio, np2_sio, bind, Except.bind, lunarFactor]
  by_cases h1 : |tM| = 1
  · simp only [if_pos h1, np2_sio]
    rfl
  · by_cases h2 : |tM| = 2
    · simp only [if_neg h1, if_pos h2, np2_sio]
      rfl
    · simp only [if_neg h1, if_neg h2, np2_scalar_left, np1_sio, mul_one]
      rfl

/-- C92. `Lunar._longitude` of an array is elementwise. -/
theorem lunar_longitude_arrays (jds : List ℝ) :
    npLunarLongitude jds = .ok (scalarIfOne (jds.map lunarLongitude)) := by
  simp only [npLunarLongitude, npJcent, kL1, kD, kM, kM1, kF, kA1, kA2, npAngle_sio, npPoly_sio, np2_sio, bind,
    Except.bind, nutation_in_longitude_arrays]
  rw [npFold_sio jds _ (fun r jd => let c := lunarConstants (jcent jd)
      r.2.2.2.2.1 * lunarFactor c r.2.1 * sin (r.1 * c.D + r.2.1 * c.M + r.2.2.1 * c.M1 + r.2.2.2.1 * c.F))
      ?_ _ (by decide)]
  · simp only [np1_sio, np2_sio]
    rfl
  · rintro ⟨tD, tM, tM1, tF, k, r⟩
    exact npLunarTerm_sio jds sin tD tM tM1 tF k

/-- C92. `Lunar._latitude` likewise. -/
theorem lunar_latitude_arrays (jds : List ℝ) :
    npLunarLatitude jds = .ok (scalarIfOne (jds.map lunarLatitude)) := by
  simp only [npLunarLatitude, npJcent, kL1, kD, kM, kM1, kF, kA1, kA3, npAngle_sio, npPoly_sio, np2_sio, bind,
    Except.bind]
  rw [npFold_sio jds _ (fun r jd => let c := lunarConstants (jcent jd)
      r.2.2.2.2 * lunarFactor c r.2.1 * sin (r.1 * c.D + r.2.1 * c.M + r.2.2.1 * c.M1 + r.2.2.2.1 * c.F))
      ?_ _ (by decide)]
  · simp only [np1_sio, np2_sio]
    rfl
  · rintro ⟨tD, tM, tM1, tF, k⟩
    exact npLunarTerm_sio jds sin tD tM tM1 tF k

/-- C92. `Lunar._radius` likewise. -/
theorem lunar_radius_arrays (jds : List ℝ) :
    npLunarRadius jds = .ok (scalarIfOne (jds.map lunarRadius)) := by
  simp only [npLunarRadius, npJcent, kD, kM, kM1, kF, npAngle_sio, npPoly_sio, np2_sio, bind, Except.bind]
  rw [npFold_sio jds _ (fun r jd => let c := lunarConstants (jcent jd)
      r.2.2.2.2.2 * lunarFactor c r.2.1 * cos (r.1 * c.D + r.2.1 * c.M + r.2.2.1 * c.M1 + r.2.2.2.1 * c.F))
      ?_ _ (by decide)]
  · simp only [np1_sio, np2_sio]
    rfl
  · rintro ⟨tD, tM, tM1, tF, k, r⟩
    exact npLunarTerm_sio jds cos tD tM tM1 tF r

/-- C92. The three dimensions of the Moon at an array of times. -/
theorem lunar_dimension3_arrays (jds : List ℝ) :
    npLunarDimension3 jds = .ok (scalarIfOne (jds.map fun jd => (lunarDimension3 jd).1),
      scalarIfOne (jds.map fun jd => (lunarDimension3 jd).2.1), scalarIfOne (jds.map fun jd => (lunarDimension3 jd).2.2)) := by
  simp only [npLunarDimension3, lunar_longitude_arrays, lunar_latitude_arrays, lunar_radius_arrays, bind, Except.bind]
  rfl

/-- C92. `Lunar.dimension`: the entries of the array are the values of the single calls, and an unknown dimension is
refused. -/
theorem lunar_dimension_arrays (jds : List ℝ) (dim : String) :
    (dim ∈ ["L", "B", "R"] → ∃ f : ℝ → ℝ, (∀ jd, lunarDimension jd dim = .ok (f jd)) ∧
      npLunarDimension jds dim = .ok (scalarIfOne (jds.map f))) ∧
    (dim ∉ ["L", "B", "R"] → npLunarDimension jds dim = .error (.Error "lunar" ("unknown dimension = " ++ dim))) := by
  constructor
  · intro h
    simp only [List.mem_cons, List.not_mem_nil, or_false] at h
    rcases h with rfl | rfl | rfl
    · exact ⟨lunarLongitude, fun _ => rfl, lunar_longitude_arrays jds⟩
    · exact ⟨lunarLatitude, fun _ => rfl, lunar_latitude_arrays jds⟩
    · exact ⟨lunarRadius, fun _ => rfl, lunar_radius_arrays jds⟩
  · intro h
    simp only [List.mem_cons, List.not_mem_nil, or_false, not_or] at h
    simp [npLunarDimension, h]

/-- C92. The mean elements of the Moon at an array of times. -/
theorem lunar_mean_arrays (jds : List ℝ) :
    npLunarNode jds = .ok (scalarIfOne (jds.map lunarNode)) ∧
    npLunarPerigee jds = .ok (scalarIfOne (jds.map lunarPerigee)) ∧
    npLunarMeanLongitude jds = .ok (scalarIfOne (jds.map lunarMeanLongitude)) ∧
    npLunarMeanElongation jds = .ok (scalarIfOne (jds.map lunarMeanElongation)) ∧
    npLunarMeanAnomaly jds = .ok (scalarIfOne (jds.map lunarMeanAnomaly)) ∧
    npLunarArgumentOfLatitude jds = .ok (scalarIfOne (jds.map lunarArgumentOfLatitude)) :=
  ⟨npAngle_sio jds jcent _ _, npAngle_sio jds jcent _ _, npAngle_sio jds jcent _ _, npAngle_sio jds jcent _ _,
    npAngle_sio jds jcent _ _, npAngle_sio jds jcent _ _⟩

/-! ### Sidereal time -/

/-- C92. `sidereal_time_greenwich` of an array is elementwise; unlike all the others it gives an array also for an
array of one element. -/
theorem sidereal_time_arrays (jds : List ℝ) :
    npSiderealTimeGreenwich jds = .ok (.arr (jds.map siderealTimeGreenwich)) := by
  rcases jds with _ | ⟨a, _ | ⟨b, l⟩⟩
  · simp [npSiderealTimeGreenwich, npJcent, scalarIfOne, np1, np2, bcast2, bdim, stretch, bind, Except.bind]
  · simp [npSiderealTimeGreenwich, npJcent, scalarIfOne, np1, np2, bind, Except.bind, siderealTimeGreenwich]
  · have e : Out.arr (a :: b :: l) = scalarIfOne ((a :: b :: l).map fun x => x) := by simp [scalarIfOne]
    simp only [npSiderealTimeGreenwich, npJcent]
    rw [e]
    simp only [np1_sio, np2_sio, bind, Except.bind]
    rfl

/-! ### Delta T -/

/-- C92. `deltaT_seconds` and `dt_to_ut` refuse every array of two or more elements, in any arithmetic. -/
theorem deltaT_arrays_refused (fl : ℚ → ℚ) (jds : List ℚ) (h : 2 ≤ jds.length) :
    npDeltaTSeconds fl jds = .error (.ValueError
      "The truth value of an array with more than one element is ambiguous. Use a.any() or a.all()") ∧
    npDtToUt fl jds = .error (.ValueError
      "The truth value of an array with more than one element is ambiguous. Use a.any() or a.all()") := by
  have : npDeltaTSeconds fl jds = .error (.ValueError
      "The truth value of an array with more than one element is ambiguous. Use a.any() or a.all()") := by
    simp only [npDeltaTSeconds, jdToCal, List.map_map, np1_sio, npTruth_many jds h, bind, Except.bind]
  exact ⟨this, by simp only [npDtToUt, this, bind, Except.bind]⟩

/-- C92. An array of one element is accepted, with the value of the single call. -/
theorem deltaT_one_array (fl : ℚ → ℚ) (jd : ℚ) :
    npDeltaTSeconds fl [jd] = .ok [deltaTSeconds fl jd] ∧ npDtToUt fl [jd] = .ok [dtToUt fl jd] := by
  simp [npDeltaTSeconds, npDtToUt, jdToCal, scalarIfOne, np1, npTruth, bind, Except.bind, dtToUt]

/-! ### Differences of angles -/

/-- C92. `diff_angle` refuses arrays of two or more elements. -/
theorem diff_angle_arrays_refused (rows : List (ℝ × ℝ)) (h : 2 ≤ rows.length) :
    npDiffAngle (scalarIfOne (rows.map Prod.fst)) (scalarIfOne (rows.map Prod.snd)) = .error (.ValueError
      "The truth value of an array with more than one element is ambiguous. Use a.any() or a.all()") := by
  simp only [npDiffAngle, np2_sio, npTruth_many rows h, bind, Except.bind]

/-! ### The equinoxes -/

theorem np_sun_dimension3 (ts : List ℝ) : ∃ fL fB fR : ℝ → ℝ, sunDimension3 vsopDict ts =
    .ok (scalarIfOne (ts.map fL), scalarIfOne (ts.map fB), scalarIfOne (ts.map fR)) := by
  obtain ⟨fL, fB, fR, h⟩ := np_dimension3 ts (planet := "Earth") (by decide)
  have h' : ∀ dim, (∃ f : ℝ → ℝ, vsopDimension vsopDict ts "Earth" dim = .ok (scalarIfOne (ts.map f))) →
      ∃ f : ℝ → ℝ, sunDimension vsopDict ts dim = .ok (scalarIfOne (ts.map f)) := by
    rintro dim ⟨f, hf⟩
    simp only [sunDimension, hf, bind, Except.bind, scalarIfOne_toList]
    split_ifs
    · exact ⟨_, by rw [List.map_map]⟩
    · exact ⟨_, by rw [List.map_map]⟩
    · exact ⟨_, rfl⟩
  have hl : ∀ dim ∈ ["L", "B", "R"], ∃ f : ℝ → ℝ,
      vsopDimension vsopDict ts "Earth" dim = .ok (scalarIfOne (ts.map f)) := by
    intro dim hd
    obtain ⟨c, hc⟩ := Option.isSome_iff_exists.mp ((vsopDict_lookup_iff "Earth" dim).mpr ⟨by decide, hd⟩)
    exact ⟨_, vsop_dimension_array _ _ _ _ hc⟩
  obtain ⟨gL, hL⟩ := h' "L" (hl "L" (by simp))
  obtain ⟨gB, hB⟩ := h' "B" (hl "B" (by simp))
  obtain ⟨gR, hR⟩ := h' "R" (hl "R" (by simp))
  exact ⟨gL, gB, gR, by unfold sunDimension3; rw [hL, hB, hR]; rfl⟩

/-- C92. `equinox` refuses every array of two or more times. -/
theorem equinox_arrays_refused (jds : List ℝ) (h : 2 ≤ jds.length) (season : String) (circ : ℝ)
    (hs : (season, circ) ∈ seasonAngle) (delta : ℝ) : ∃ msg, npEquinox jds season delta = .error (.ValueError msg) := by
  obtain ⟨fL, fB, fR, e⟩ := np_sun_dimension3 jds
  obtain ⟨hc, -, -⟩ := seasonAngle_circle hs
  rcases jds with _ | ⟨a, _ | ⟨b, l⟩⟩
  · simp at h
  · simp at h
  · refine ⟨"setting an array element with a sequence. The requested array has an inhomogeneous shape after 1 dimensions.", ?_⟩
    simp only [npEquinox, hc]
    rw [npEquinoxLoop]
    simp only [e, nutation_in_longitude_arrays, np1_sio, np2_sio, bind, Except.bind]
    simp only [List.map_cons, scalarIfOne, npVsopToFk5]

/-- Two times. -/
example : ∃ msg, npEquinox [2451545, 2451910] "spring" 0.001 = .error (.ValueError msg) :=
  equinox_arrays_refused _ (by simp) "spring" 0 (by simp [seasonAngle, deg]) _

/-- C92. An array of one time: for every precision the result is that of a single pass, since the array is changed in
place and the test compares it with itself. -/
theorem equinox_one_array (jd : ℝ) (season : String) (circ : ℝ) (hs : (season, circ) ∈ seasonAngle) (delta : ℝ)
    (hd : 0 < delta) : ∃ L, apparentSun vsopDict jd = .ok L ∧
      npEquinox [jd] season delta = .ok [jd + diffAngle L circ * kSunMotion] := by
  obtain ⟨fL, fB, fR, e⟩ := np_sun_dimension3 [jd]
  obtain ⟨hc, -, -⟩ := seasonAngle_circle hs
  simp only [List.map_cons, List.map_nil, scalarIfOne] at e
  refine ⟨(vsopToFk5 jd (fL jd + (nutationInLongitude jd + aberrationLow (fR jd))) (fB jd)).1, ?_, ?_⟩
  · simp only [apparentSun, e, bind, Except.bind]
  · have n := nutation_in_longitude_arrays [jd]
    simp only [List.map_cons, List.map_nil, scalarIfOne] at n
    have v := vsop_to_fk5_arrays [jd] (fL jd + (nutationInLongitude jd + aberrationLow (fR jd))) (fB jd)
    simp only [List.map_cons, List.map_nil, scalarIfOne] at v
    simp only [npEquinox, hc]
    rw [npEquinoxLoop]
    simp only [e, n, np1_scalar, np2_scalar_left, np2_scalar_right, bind, Except.bind, v,
      npDiffAngle_scalar]
    simp [np1, np2, Out.toList, bcast2, bdim, stretch, npTruth, bind, Except.bind, hd]

/-- C92, negative: the time found for an array of one element is wrong by more than a day, whatever the precision asked
for, where the same time as a float gives the equinox. -/
theorem equinox_one_array_wrong : ∃ jd x, IsEvent 0 x ∧ ∀ delta, 1e-20 ≤ delta →
    ∃ t s, equinox jd "spring" delta = .ok t ∧ |t - x| ≤ 0.056 * delta ∧
      npEquinox [jd] "spring" delta = .ok [s] ∧ 1.4 < |s - x| := by
  obtain ⟨x, ex, dx⟩ := published_event ⟨2000, "spring", 20, 7, 36, 19⟩ (by simp [publishedEvents]) 0 (by simp [seasonAngle, deg])
  obtain ⟨y, ey, dy⟩ := published_event ⟨2000, "summer", 21, 1, 48, 46⟩ (by simp [publishedEvents]) (deg 90) (by simp [seasonAngle])
  have t1 : (PublishedEvent.time ⟨2000, "spring", 20, 7, 36, 19⟩) = 2451623.5 + 27379 / 86400 := by
    unfold PublishedEvent.time jd0
    rw [jdnClosed_eq _ _ _ (by simp [seasonMonth])]
    norm_num [jdnClosed, seasonMonth]
  have t2 : (PublishedEvent.time ⟨2000, "summer", 21, 1, 48, 46⟩) = 2451716.5 + 6526 / 86400 := by
    unfold PublishedEvent.time jd0
    rw [jdnClosed_eq _ _ _ (by simp [seasonMonth])]
    have hq : ("summer" = "spring") = False := by simp
    norm_num [jdnClosed, seasonMonth, hq]
  rw [t1] at dx
  rw [t2] at dy
  have dx' : |x - (2451623.5 + 27379 / 86400)| ≤ 0.0001 := by
    push_cast at dx; norm_num at dx ⊢; linarith
  have dy' : |y - (2451716.5 + 6526 / 86400)| ≤ 0.0001 := by
    push_cast at dy; norm_num at dy ⊢; linarith
  have hy := abs_le.1 dy'
  have hx := abs_le.1 dx'
  norm_num at hx hy
  refine ⟨y, x, ex, fun delta h0 => ?_⟩
  have hs : ("spring", (0 : ℝ)) ∈ seasonAngle := by simp [seasonAngle, deg]
  obtain ⟨t, ht, tx⟩ := equinox_nearest y (by
    unfold millennia
    rw [abs_le, le_div_iff₀ (by norm_num), div_le_iff₀ (by norm_num)]
    norm_num
    constructor <;> linarith) "spring" 0 x hs ex (by rw [abs_le]; constructor <;> linarith) delta h0
  obtain ⟨L, hL, e⟩ := equinox_one_array y "spring" 0 hs delta (by norm_num at h0 ⊢; linarith)
  have eL : L = π / 2 := by
    have : IsEvent (deg 90) y := ey
    unfold IsEvent at this
    rw [hL, Except.ok.injEq] at this
    rw [this]; unfold deg; ring
  have p := Real.pi_pos
  have hd : diffAngle L 0 * kSunMotion = -91.3125 := by
    rw [eL]
    unfold diffAngle kSunMotion pi2
    have h2 : 0 < π / 2 := by positivity
    rw [if_pos h2, if_pos (by linarith)]
    field_simp
    ring
  rw [hd] at e
  refine ⟨t, _, ht, tx, e, ?_⟩
  rw [lt_abs]
  left
  norm_num
  linarith

end Verif

import Verif.Lemmas.Numpy
import Verif.Props.Geocentric

/-!
# C86: array arguments of the astronomical functions
-/

namespace Verif
open Real Spec

/-! ### Coordinate transformations: elementwise, with broadcasting -/

/-- C86. `ecl_to_equ` of scalars and arrays of one length is elementwise. -/
theorem ecl_to_equ_arrays {n k₁ k₂ k₃ : ℕ} (hn : 0 < n) {lon lat obl : Out ℝ} {l b e : ℕ → ℝ}
    (hl : Rep n k₁ lon l) (hb : Rep n k₂ lat b) (he : Rep n k₃ obl e) :
    ∃ ra dec, npEclToEqu lon lat obl = .ok (ra, dec) ∧
      Rep n (max k₁ (max k₂ k₃)) ra (fun i => (eclToEqu (l i) (b i) (e i)).1) ∧
      Rep n (max k₁ (max k₂ k₃)) dec (fun i => (eclToEqu (l i) (b i) (e i)).2) := by
  obtain ⟨p, ep, rp⟩ := (hl.np1 sin).np2 hn (he.np1 cos) (· * ·)
  obtain ⟨q, eq, rq⟩ := (hb.np1 tan).np2 hn (he.np1 sin) (· * ·)
  obtain ⟨d, ed, rd⟩ := rp.np2 hn rq (· - ·)
  obtain ⟨a, ea, ra⟩ := rd.np2 hn (hl.np1 cos) arctan2
  obtain ⟨p', ep', rp'⟩ := (hb.np1 sin).np2 hn (he.np1 cos) (· * ·)
  obtain ⟨q', eq', rq'⟩ := (hb.np1 cos).np2 hn (he.np1 sin) (· * ·)
  obtain ⟨q2, eq2, rq2⟩ := rq'.np2 hn (hl.np1 sin) (· * ·)
  obtain ⟨d', ed', rd'⟩ := rp'.np2 hn rq2 (· + ·)
  refine ⟨np1 modpi2 a, np1 arcsin d', ?_, ?_, ?_⟩
  · simp only [npEclToEqu, ep, eq, ed, ea, ep', eq', eq2, ed', bind, Except.bind]
  · have := ra.np1 modpi2
    have hk : max (max (max k₁ k₃) (max k₂ k₃)) k₁ = max k₁ (max k₂ k₃) := by omega
    rw [hk] at this; exact this
  · have := rd'.np1 arcsin
    have hk : max (max k₂ k₃) (max (max k₂ k₃) k₁) = max k₁ (max k₂ k₃) := by omega
    rw [hk] at this; exact this

/-- C86. `equ_to_ecl` likewise. -/
theorem equ_to_ecl_arrays {n k₁ k₂ k₃ : ℕ} (hn : 0 < n) {lon lat obl : Out ℝ} {l b e : ℕ → ℝ}
    (hl : Rep n k₁ lon l) (hb : Rep n k₂ lat b) (he : Rep n k₃ obl e) :
    ∃ x y, npEquToEcl lon lat obl = .ok (x, y) ∧
      Rep n (max k₁ (max k₂ k₃)) x (fun i => (equToEcl (l i) (b i) (e i)).1) ∧
      Rep n (max k₁ (max k₂ k₃)) y (fun i => (equToEcl (l i) (b i) (e i)).2) := by
  obtain ⟨p, ep, rp⟩ := (hl.np1 sin).np2 hn (he.np1 cos) (· * ·)
  obtain ⟨q, eq, rq⟩ := (hb.np1 tan).np2 hn (he.np1 sin) (· * ·)
  obtain ⟨d, ed, rd⟩ := rp.np2 hn rq (· + ·)
  obtain ⟨a, ea, ra⟩ := rd.np2 hn (hl.np1 cos) arctan2
  obtain ⟨p', ep', rp'⟩ := (hb.np1 sin).np2 hn (he.np1 cos) (· * ·)
  obtain ⟨q', eq', rq'⟩ := (hb.np1 cos).np2 hn (he.np1 sin) (· * ·)
  obtain ⟨q2, eq2, rq2⟩ := rq'.np2 hn (hl.np1 sin) (· * ·)
  obtain ⟨d', ed', rd'⟩ := rp'.np2 hn rq2 (· - ·)
  refine ⟨np1 modpi2 a, np1 modpi2 (np1 arcsin d'), ?_, ?_, ?_⟩
  · simp only [npEquToEcl, ep, eq, ed, ea, ep', eq', eq2, ed', bind, Except.bind]
  · have := ra.np1 modpi2
    have hk : max (max (max k₁ k₃) (max k₂ k₃)) k₁ = max k₁ (max k₂ k₃) := by omega
    rw [hk] at this; exact this
  · have := (rd'.np1 arcsin).np1 modpi2
    have hk : max (max k₂ k₃) (max (max k₂ k₃) k₁) = max k₁ (max k₂ k₃) := by omega
    rw [hk] at this; exact this

/-- C86. `equ_to_horiz` likewise. -/
theorem equ_to_horiz_arrays {n k₁ k₂ : ℕ} (hn : 0 < n) (φ : ℝ) {H decl : Out ℝ} {h d : ℕ → ℝ}
    (hh : Rep n k₁ H h) (hd : Rep n k₂ decl d) :
    ∃ A a, npEquToHoriz φ H decl = .ok (A, a) ∧
      Rep n (max k₁ k₂) A (fun i => (equToHoriz φ (h i) (d i)).1) ∧
      Rep n (max k₁ k₂) a (fun i => (equToHoriz φ (h i) (d i)).2) := by
  obtain ⟨p, ep, rp⟩ := ((hh.np1 cos).np1 (fun c => c * sin φ)).np2 hn ((hd.np1 tan).np1 (fun t => t * cos φ)) (· - ·)
  obtain ⟨A, eA, rA⟩ := (hh.np1 sin).np2 hn rp arctan2
  obtain ⟨q, eq, rq⟩ := ((hd.np1 cos).np1 (fun c => cos φ * c)).np2 hn (hh.np1 cos) (· * ·)
  obtain ⟨s, es, rs⟩ := ((hd.np1 sin).np1 (fun s => sin φ * s)).np2 hn rq (· + ·)
  refine ⟨A, np1 arcsin s, ?_, ?_, ?_⟩
  · simp only [npEquToHoriz, ep, eA, eq, es, bind, Except.bind]
  · have hk : max k₁ (max k₁ k₂) = max k₁ k₂ := by omega
    rw [hk] at rA; exact rA
  · have := rs.np1 arcsin
    have hk : max k₂ (max k₂ k₁) = max k₁ k₂ := by omega
    rw [hk] at this; exact this

/-- C86. `ell_to_geo` likewise; the longitude is returned as given, whatever its shape. -/
theorem ell_to_geo_arrays {n k₁ k₃ : ℕ} (hn : 0 < n) {lat height : Out ℝ} (lon : Out ℝ) {l h : ℕ → ℝ} (x : ℝ)
    (hl : Rep n k₁ lat l) (hh : Rep n k₃ height h) :
    ∃ r t, npEllToGeo lat lon height = .ok (r, t, lon) ∧
      Rep n (max k₁ k₃) r (fun i => (ellToGeo (l i) x (h i)).1) ∧
      Rep n (max k₁ k₃) t (fun i => (ellToGeo (l i) x (h i)).2.1) := by
  set f : ℝ := 1.0 / 298.2564219846 with hf
  set ea := earthEquRadius / 1000 with hea
  set ee := 2.0 * f - f * f with hee
  obtain ⟨s, es, rs⟩ := ((hl.np1 sin).np1 (fun s => ee * s)).np2 hn (hl.np1 sin) (· * ·)
  have rN := rs.np1 (fun s => ea / √(1.0 - s))
  obtain ⟨a, eqa, ra⟩ := rN.np2 hn hh (· + ·)
  obtain ⟨X, eX, rX⟩ := ra.np2 hn (hl.np1 cos) (· * ·)
  obtain ⟨a', eqa', ra'⟩ := (rN.np1 (fun N => N * (1 - ee))).np2 hn hh (· + ·)
  obtain ⟨Y, eY, rY⟩ := ra'.np2 hn (hl.np1 sin) (· * ·)
  obtain ⟨x2, ex2, rx2⟩ := rX.np2 hn rX (· * ·)
  obtain ⟨y2, ey2, ry2⟩ := rY.np2 hn rY (· * ·)
  obtain ⟨r, er, rr⟩ := rx2.np2 hn ry2 (· + ·)
  obtain ⟨t, et, rt⟩ := rX.np2 hn rY arctan2
  refine ⟨np1 sqrt r, t, ?_, ?_, ?_⟩
  · simp only [npEllToGeo, ← hf, ← hea, ← hee, es, eqa, eX, eqa', eY, ex2, ey2, er, et, bind, Except.bind]
  · have := rr.np1 sqrt
    have hk : max (max (max (max (max k₁ k₁) k₃) k₁) (max (max (max k₁ k₁) k₃) k₁))
      (max (max (max (max k₁ k₁) k₃) k₁) (max (max (max k₁ k₁) k₃) k₁)) = max k₁ k₃ := by omega
    rw [hk] at this; exact this
  · have hk : max (max (max (max k₁ k₁) k₃) k₁) (max (max (max k₁ k₁) k₃) k₁) = max k₁ k₃ := by omega
    rw [hk] at rt; exact rt

/-! ### The low precision Sun, and `vsop_to_fk5`: elementwise in the times -/

/-- C86. -/
theorem sun_mean_longitude_arrays (jds : List ℝ) :
    npSunMeanLongitude jds = .ok (scalarIfOne (jds.map sunMeanLongitude)) := by
  simp only [npSunMeanLongitude, npJcent, np1_sio, npPoly_sio, bind, Except.bind, npScalarIfOne_sio]
  rfl

/-- C86. -/
theorem sun_mean_longitude_perigee_arrays (jds : List ℝ) :
    npSunMeanLongitudePerigee jds = .ok (scalarIfOne (jds.map sunMeanLongitudePerigee)) := by
  simp only [npSunMeanLongitudePerigee, npJcent, np1_sio, npPoly_sio, bind, Except.bind, npScalarIfOne_sio]
  rfl

/-- C86. -/
theorem longitude_radius_low_arrays (jds : List ℝ) :
    npLongitudeRadiusLow jds = .ok (scalarIfOne (jds.map fun jd => (longitudeRadiusLow jd).1),
      scalarIfOne (jds.map fun jd => (longitudeRadiusLow jd).2)) := by
  simp only [npLongitudeRadiusLow, npJcent, np1_sio, npPoly_sio, np2_sio, bind, Except.bind]
  rfl

/-- C86. `apparent_longitude_low` of the times and of the longitudes which `longitude_radius_low` returns for
them, or any others. -/
theorem apparent_longitude_low_arrays (rows : List (ℝ × ℝ)) :
    npApparentLongitudeLow (rows.map Prod.fst) (scalarIfOne (rows.map Prod.snd)) =
      .ok (scalarIfOne (rows.map fun r => apparentLongitudeLow r.1 r.2)) := by
  simp only [npApparentLongitudeLow, npJcent, List.map_map, np1_sio, np2_sio, bind, Except.bind,
    npScalarIfOne_sio, Function.comp_apply, Function.comp_def]
  rfl

/-- C86. `vsop_to_fk5` of an array of times and one pair of coordinates. -/
theorem vsop_to_fk5_arrays (jds : List ℝ) (L B : ℝ) :
    npVsopToFk5 jds (.scalar L) (.scalar B) = .ok (scalarIfOne (jds.map fun jd => (vsopToFk5 jd L B).1),
      scalarIfOne (jds.map fun jd => (vsopToFk5 jd L B).2)) := by
  simp only [npVsopToFk5, npJcent, np1_sio, npPoly_sio, np2_sio, bind, Except.bind, npScalarIfOne_sio,
    np2_scalar_right, np2_scalar_left, np1_scalar]
  rfl

/-! ### `geocentric_planet` refuses arrays -/

theorem np_dimension3 (ts : List ℝ) {planet : String} (h : planet ∈ knownPlanets) :
    ∃ fL fB fR : ℝ → ℝ, vsopDimension3 vsopDict ts planet =
      .ok (scalarIfOne (ts.map fL), scalarIfOne (ts.map fB), scalarIfOne (ts.map fR)) := by
  have hl : ∀ dim ∈ ["L", "B", "R"], ∃ f : ℝ → ℝ,
      vsopDimension vsopDict ts planet dim = .ok (scalarIfOne (ts.map f)) := by
    intro dim hd
    have := (vsopDict_lookup_iff planet dim).mpr ⟨h, hd⟩
    obtain ⟨c, hc⟩ := Option.isSome_iff_exists.mp this
    exact ⟨_, vsop_dimension_array _ _ _ _ hc⟩
  obtain ⟨fL, hL⟩ := hl "L" (by simp)
  obtain ⟨fB, hB⟩ := hl "B" (by simp)
  obtain ⟨fR, hR⟩ := hl "R" (by simp)
  refine ⟨fL, fB, fR, ?_⟩
  unfold vsopDimension3
  rw [hL, hB, hR]
  rfl

theorem np_dimension3_unknown (ts : List ℝ) {planet : String} (h : planet ∉ knownPlanets) :
    vsopDimension3 vsopDict ts planet = .error (.KeyError planet) := by
  unfold vsopDimension3
  rw [(vsop_dimension_unknown ts planet "L").mp (fun hh => h hh.1)]
  rfl

theorem npTruth_many {α : Type} (ts : List α) (h : 2 ≤ ts.length) (g : α → Bool) :
    npTruth (scalarIfOne (ts.map g)) = .error (.ValueError
      "The truth value of an array with more than one element is ambiguous. Use a.any() or a.all()") := by
  rcases ts with _ | ⟨a, _ | ⟨b, ts⟩⟩
  · simp at h
  · simp at h
  · simp [scalarIfOne, npTruth]

/-- C86. `geocentric_planet` documents its time as "float or ndarray", and raises for every array with more
than one time, for every planet: `diff_angle` asks for the truth value of an array. -/
theorem geocentric_planet_arrays_refused (jds : List ℝ) (h : 2 ≤ jds.length) {planet : String}
    (hp : planet ∈ knownPlanets) (deltaPsi eps delta : ℝ) :
    npGeocentricPlanet jds planet deltaPsi eps delta = .error (.ValueError
      "The truth value of an array with more than one element is ambiguous. Use a.any() or a.all()") := by
  obtain ⟨eL, eB, eR, he⟩ := np_dimension3 jds (planet := "Earth") (by decide)
  obtain ⟨fL, fB, fR, hf⟩ := np_dimension3 jds hp
  simp only [npGeocentricPlanet, npGeocentricLoop, he, hf, npRectOffset, np1_sio, np2_sio, bind, Except.bind,
    npDiffAngle, np2_scalar_left, npTruth_many _ h]

/-- C86. The only other outcome for an array is the `KeyError` of an unknown planet. -/
theorem geocentric_planet_arrays_unknown (jds : List ℝ) {planet : String} (hp : planet ∉ knownPlanets)
    (deltaPsi eps delta : ℝ) :
    npGeocentricPlanet jds planet deltaPsi eps delta = .error (.KeyError planet) := by
  obtain ⟨eL, eB, eR, he⟩ := np_dimension3 jds (planet := "Earth") (by decide)
  simp only [npGeocentricPlanet, npGeocentricLoop, he, np_dimension3_unknown _ hp, bind, Except.bind]

theorem npDiffAngle_scalar (a b : ℝ) : npDiffAngle (.scalar a) (.scalar b) = .ok (.scalar (diffAngle a b)) := by
  unfold npDiffAngle diffAngle
  simp only [np2_scalar_left, np1_scalar, bind, Except.bind, npTruth]
  by_cases h : b < a
  · by_cases h' : b + pi2 - a > π <;> simp [h, h', npTruth, np1_scalar]
  · by_cases h' : b - a > π <;> simp [h, h', npTruth, np1_scalar]

theorem np_geocentric_loop_one (jd : ℝ) (planet : String) (delta : ℝ) (n : ℕ) (t l0 : ℝ) :
    npGeocentricLoop vsopDict [jd] planet delta n [t] (.scalar l0) =
      (geocentricLoop vsopDict jd planet delta n t l0).map fun r => (.scalar r.1, .scalar r.2) := by
  induction n generalizing t l0 with
  | zero => rfl
  | succ n ih =>
    obtain ⟨eL, eB, eR, he⟩ := np_dimension3 [t] (planet := "Earth") (by decide)
    by_cases hp : planet ∈ knownPlanets
    · obtain ⟨fL, fB, fR, hf⟩ := np_dimension3 [t] hp
      simp only [List.map_cons, List.map_nil, scalarIfOne] at he hf
      simp only [npGeocentricLoop, geocentricLoop, helioScalars, he, hf, npRectOffset, np1_scalar, np2_scalar_left,
        bind, Except.bind, npDiffAngle_scalar, npTruth, rectOffset]
      simp only [decide_eq_true_eq]
      split_ifs with h1
      · refine Eq.trans ?_ (congrArg (Except.map _) (if_pos h1)).symm
        rfl
      · exact (ih _ _).trans (congrArg (Except.map _) (if_neg h1)).symm
    · simp only [List.map_cons, List.map_nil, scalarIfOne] at he
      simp only [npGeocentricLoop, geocentricLoop, helioScalars, he, np_dimension3_unknown _ hp, bind, Except.bind,
        Except.map]

/-- C86. For one time the array model gives what the scalar model gives. -/
theorem geocentric_planet_one (jd : ℝ) (planet : String) (deltaPsi eps delta : ℝ) :
    npGeocentricPlanet [jd] planet deltaPsi eps delta =
      (geocentricPlanet jd planet deltaPsi eps delta).map fun r => (.scalar r.1, .scalar r.2) := by
  unfold npGeocentricPlanet geocentricPlanet
  rw [np_geocentric_loop_one]
  rcases geocentricLoop vsopDict jd planet delta 20 jd (-100) with e | ⟨l, b⟩
  · rfl
  · simp only [Except.map, bind, Except.bind, vsop_to_fk5_arrays, List.map_cons, List.map_nil, scalarIfOne, np1_scalar,
      npEclToEqu, np2_scalar_left]
    rfl

/-! ### The hypotheses are met -/

/-- Two longitudes, one latitude in an array, a scalar obliquity. -/
example : Rep 2 2 (.arr [1, 2] : Out ℝ) (fun i => (i : ℝ) + 1) ∧ Rep 2 1 (.arr [0.1] : Out ℝ) (fun _ => 0.1) ∧
    Rep 2 0 (.scalar 0.4 : Out ℝ) fun _ => 0.4 := by
  refine ⟨⟨⟨rfl, Or.inr rfl⟩, fun i hi => ?_⟩, ⟨⟨rfl, Or.inl rfl⟩, fun i _ => rfl⟩, .scalar 2 0.4⟩
  interval_cases i <;> simp [entry, pick] <;> norm_num

/-- The four epochs of a table of Mars, at intervals of a day. -/
example (deltaPsi eps delta : ℝ) :
    ∃ msg, npGeocentricPlanet [2451545, 2451546, 2451547, 2451548] "Mars" deltaPsi eps delta = .error (.ValueError msg) :=
  ⟨_, geocentric_planet_arrays_refused _ (by simp) (by decide) _ _ _⟩

end Verif

import Mathlib.Data.Rat.Defs
import Verif.Spec.Calendar

/-!
# Published times of equinoxes and solstices

The table of Meeus, "Astronomical Algorithms" (second edition, table 27.E; summer 1962 is the worked
example of chapter 27), as given in `tests/test_equinox.py` 22-118.  Dynamical time.  The values are not
computed by the program.
-/

namespace Verif.Spec

/-- An equinox or solstice: Gregorian year, season, day of the month, hour, minute and second. -/
structure PublishedEvent where
  year : ℤ
  season : String
  day : ℤ
  hour : ℤ
  minute : ℤ
  second : ℤ

/-- The month in which a season begins. -/
def seasonMonth (season : String) : ℤ :=
  if season = "spring" then 3 else if season = "summer" then 6 else if season = "autumn" then 9 else 12

/-- The Julian Day of the event. -/
def PublishedEvent.time (e : PublishedEvent) : ℚ :=
  jd0 true e.year (seasonMonth e.season) e.day + (3600 * e.hour + 60 * e.minute + e.second : ℤ) / 86400

/-- The table. -/
def publishedEvents : List PublishedEvent := [
  ⟨1962, "summer", 21, 21, 24, 42⟩,
  ⟨1996, "spring", 20, 8, 4, 7⟩,
  ⟨1996, "summer", 21, 2, 24, 46⟩,
  ⟨1996, "autumn", 22, 18, 1, 8⟩,
  ⟨1996, "winter", 21, 14, 6, 56⟩,
  ⟨1997, "spring", 20, 13, 55, 42⟩,
  ⟨1997, "summer", 21, 8, 20, 59⟩,
  ⟨1997, "autumn", 22, 23, 56, 49⟩,
  ⟨1997, "winter", 21, 20, 8, 5⟩,
  ⟨1998, "spring", 20, 19, 55, 35⟩,
  ⟨1998, "summer", 21, 14, 3, 38⟩,
  ⟨1998, "autumn", 23, 5, 38, 15⟩,
  ⟨1998, "winter", 22, 1, 57, 31⟩,
  ⟨1999, "spring", 21, 1, 46, 53⟩,
  ⟨1999, "summer", 21, 19, 50, 11⟩,
  ⟨1999, "autumn", 23, 11, 32, 34⟩,
  ⟨1999, "winter", 22, 7, 44, 52⟩,
  ⟨2000, "spring", 20, 7, 36, 19⟩,
  ⟨2000, "summer", 21, 1, 48, 46⟩,
  ⟨2000, "autumn", 22, 17, 28, 40⟩,
  ⟨2000, "winter", 21, 13, 38, 30⟩,
  ⟨2001, "spring", 20, 13, 31, 47⟩,
  ⟨2001, "summer", 21, 7, 38, 48⟩,
  ⟨2001, "autumn", 22, 23, 5, 32⟩,
  ⟨2001, "winter", 21, 19, 22, 34⟩,
  ⟨2002, "spring", 20, 19, 17, 13⟩,
  ⟨2002, "summer", 21, 13, 25, 29⟩,
  ⟨2002, "autumn", 23, 4, 56, 28⟩,
  ⟨2002, "winter", 22, 1, 15, 26⟩,
  ⟨2003, "spring", 21, 1, 0, 50⟩,
  ⟨2003, "summer", 21, 19, 11, 32⟩,
  ⟨2003, "autumn", 23, 10, 47, 53⟩,
  ⟨2003, "winter", 22, 7, 4, 53⟩,
  ⟨2004, "spring", 20, 6, 49, 42⟩,
  ⟨2004, "summer", 21, 0, 57, 57⟩,
  ⟨2004, "autumn", 22, 16, 30, 54⟩,
  ⟨2004, "winter", 21, 12, 42, 40⟩,
  ⟨2005, "spring", 20, 12, 34, 29⟩,
  ⟨2005, "summer", 21, 6, 47, 12⟩,
  ⟨2005, "autumn", 22, 22, 24, 14⟩,
  ⟨2005, "winter", 21, 18, 36, 1⟩]

end Verif.Spec

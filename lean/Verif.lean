import Verif.Props.CalToJd
import Verif.Props.JdToCal
import Verif.Props.Arrays
import Verif.Props.DayOfYear
import Verif.Props.Easter
import Verif.Props.FracYear
import Verif.Props.FracMonthAll
import Verif.Props.TimeOfDay
import Verif.Props.LocalTime
import Verif.Props.Angles
import Verif.Props.Interpolation
import Verif.Props.Params
import Verif.Props.DeltaT
import Verif.Props.Coordinates
import Verif.Props.Planets
import Verif.Props.Nutation
import Verif.Props.Lunar
import Verif.Props.SunLow
import Verif.Props.EquinoxApprox
import Verif.Props.Equinox
import Verif.Props.EquinoxYear
import Verif.Props.Fk5
import Verif.Props.Geocentric
import Verif.Model.RiseSet
import Verif.Spec.Sidereal
import Verif.Spec.RiseSet
import Verif.Lemmas.RiseSet
import Verif.Props.Transit
import Verif.Lemmas.Altitude
import Verif.Props.RiseSet
import Verif.Model.Heap
import Verif.Props.Heap
import Verif.Model.Cronus
import Verif.Lemmas.Cronus
import Verif.Props.Cronus
import Verif.Props.CronusEaster
import Verif.Props.CronusTables
import Verif.Props.CronusPlaces
import Verif.Props.CronusWitness
import Verif.Model.Cgi
import Verif.Lemmas.PyInt
import Verif.Props.EasterCgi
import Verif.Props.Solstice
import Verif.Model.SunRise
import Verif.Props.SunRise
import Verif.Lemmas.MoonMotion
import Verif.Props.MoonMotion
import Verif.Props.Elongation
import Verif.Props.Synodic
import Verif.Model.FloatTrig
import Verif.Lemmas.FloatErr
import Verif.Lemmas.FloatVsop
import Verif.Props.FloatVsop
import Verif.Model.FloatSun
import Verif.Lemmas.FloatNut
import Verif.Lemmas.FloatNut2
import Verif.Lemmas.FloatNut3
import Verif.Lemmas.FloatSun
import Verif.Lemmas.FloatEquinox
import Verif.Props.FloatEquinox
import Verif.Model.FloatApprox
import Verif.Lemmas.FloatApprox
import Verif.Props.FloatApprox
import Verif.Model.FloatLunar
import Verif.Lemmas.FloatLunar
import Verif.Props.FloatLunar
import Verif.Model.FloatCoord
import Verif.Lemmas.FloatCoord
import Verif.Props.FloatCoord
import Verif.Props.FloatZenith
import Verif.Model.FloatGeo
import Verif.Lemmas.FloatGeo
import Verif.Lemmas.FloatGeoLoop
import Verif.Props.FloatGeo
import Verif.Props.Jcent
import Verif.Model.FloatEaster
import Verif.Lemmas.FloatEaster
import Verif.Props.FloatEaster
import Verif.Model.FloatRise
import Verif.Lemmas.FloatRise
import Verif.Lemmas.FloatTransit
import Verif.Props.FloatTransit
import Verif.Lemmas.FloatRiseSet
import Verif.Props.FloatRiseSet
import Verif.Model.Numpy
import Verif.Lemmas.Numpy
import Verif.Props.NumpyArrays
import Verif.Model.FloatMisc
import Verif.Lemmas.FloatMisc
import Verif.Lemmas.FloatMisc2
import Verif.Lemmas.FloatMisc3
import Verif.Props.FloatMisc
import Verif.Props.VsopChk
import Verif.Lemmas.LaneNat
import Verif.Lemmas.LaneSum
import Verif.Lemmas.LaneVsop
import Verif.Lemmas.LaneEquinox
import Verif.Lemmas.LaneReal
import Verif.Lemmas.PointNat
import Verif.Lemmas.PointSun
import Verif.Lemmas.PointEvent
import Verif.Lemmas.EqLin
import Verif.Lemmas.EqLinOK
import Verif.Lemmas.EqEvent
import Verif.Lemmas.EqPoints1
import Verif.Lemmas.EqPoints2
import Verif.Lemmas.EqPoints3
import Verif.Lemmas.EqBlock.Spring0
import Verif.Lemmas.EqBlock.Summer0
import Verif.Lemmas.EqBlock.Autumn0
import Verif.Lemmas.EqBlock.Winter0
import Verif.Lemmas.EqBlock.Spring1
import Verif.Lemmas.EqBlock.Summer1
import Verif.Lemmas.EqBlock.Autumn1
import Verif.Lemmas.EqBlock.Winter1
import Verif.Lemmas.EqBlock.Spring2
import Verif.Lemmas.EqBlock.Summer2
import Verif.Lemmas.EqBlock.Autumn2
import Verif.Lemmas.EqBlock.Winter2
import Verif.Lemmas.EqBlock.Spring3
import Verif.Lemmas.EqBlock.Summer3
import Verif.Lemmas.EqBlock.Autumn3
import Verif.Lemmas.EqBlock.Winter3
import Verif.Lemmas.EqAll
import Verif.Props.EquinoxAccuracy
import Verif.Spec.Seasons
import Verif.Lemmas.EqPublished
import Verif.Props.EquinoxPublished
import Verif.Lemmas.PointMoon
import Verif.Lemmas.MoonPublished
import Verif.Spec.Examples
import Verif.Props.Published
import Verif.Lemmas.SunPublished
import Verif.Props.SunPublished
import Verif.Model.NumpyMoon
import Verif.Props.NumpyMoon
import Verif.Model.FloatUtil
import Verif.Props.FloatUtil
import Verif.Model.CheckPerihelion
import Verif.Lemmas.Perihelion
import Verif.Props.CheckPerihelion
import Verif.Props.CronusSeasons
import Verif.Spec.DeltaTChecks
import Verif.Props.FloatDeltaT
import Verif.Lemmas.VenusPublished
import Verif.Lemmas.VenusPlace
import Verif.Props.VenusPublished
import Verif.Props.PublishedCoord
import Verif.Props.FloatAngle
import Verif.Props.FloatRiseAll
import Verif.Spec.Fk5
import Verif.Spec.Aberration
import Verif.Lemmas.Fk5Rotation
import Verif.Props.Fk5Rotation
import Verif.Props.Aberration
import Verif.Lemmas.SunAberration
import Verif.Lemmas.SunAberration2
import Verif.Props.SunAberration
import Verif.Lemmas.LowSun
import Verif.Lemmas.LowRadius
import Verif.Props.LowSunRadius
import Verif.Props.LowSunAccuracy
import Verif.Props.LowSunFloat
import Verif.Props.CgiForms
import Verif.Lemmas.Taylor2
import Verif.Lemmas.PoissonJet
import Verif.Lemmas.EarthDay
import Verif.Lemmas.NutRate
import Verif.Lemmas.SunDay
import Verif.Lemmas.EquJet
import Verif.Lemmas.SunDayPlace
import Verif.Props.SunInterp
import Verif.Lemmas.MoonDay
import Verif.Props.MoonInterp
import Verif.Lemmas.Jet3
import Verif.Lemmas.EquJet3
import Verif.Lemmas.AlphaJet3
import Verif.Lemmas.MoonWave
import Verif.Lemmas.MoonDayPlace
import Verif.Props.MoonBound
import Verif.Props.CronusTransits
import Verif.Model.CreateDb
import Verif.Spec.VsopFile
import Verif.Props.CreateDb
import Verif.Props.CalendarCases
import Verif.Props.SkyCases
import Verif.Props.PlanetTransits
import Verif.Props.PlanetInterp
import Verif.Props.CronusEnds

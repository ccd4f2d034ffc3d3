import Verif.Num
import Verif.Arr
import Verif.Psa
import Verif.Soltrack
import Verif.Calendar
import Verif.Iqbal
import Verif.NrelTables
import Verif.Nrel
import Verif.Shapes
import Verif.Core
import Verif.DA
import Verif.Sunpos
import Verif.Master
import Verif.Spec
import Verif.RealXR
import Verif.Geo
import Verif.Props.Calls
import Verif.Astro
import Verif.Refr
import Verif.RPsa
import Verif.RSoltrack
import Verif.RIqbal
import Verif.RNrel
import Verif.Nan
import Verif.RAir
import Verif.Props.Exact
import Verif.Props.Irradiance
import Verif.Props.Sunrise
import Verif.RTime
import Verif.Props.Incidence
import Verif.Props.Calendar
import Verif.Utils
import Verif.Cli
import Verif.Props.Cli
import Verif.Bench
import Verif.Props.Bench
import Verif.Jpl
import Verif.Props.Jpl
import Verif.Ephem
import Verif.REphem
import Verif.RDrift
import Verif.RNrelEphem
import Verif.RNrelNear
import Verif.RAccuracy
import Verif.RIqbalPhase
import Verif.RIqbalNear
import Verif.RDistance
import Verif.Props.Accuracy
import Verif.Round
import Verif.RoundTrig
import Verif.RoundIeee
import Verif.RdPsa
import Verif.RdPsaPos
import Verif.RdRefr
import Verif.RdPsaZen
import Verif.RdPsaCell
import Verif.Props.Rounding
import Verif.RdSol
import Verif.SolRefr
import Verif.RdSolPos
import Verif.RdSolCell
import Verif.Props.RoundSol
import Verif.RdIqbal
import Verif.RdIqbalCell
import Verif.Props.RoundIqbal
import Verif.RdNrel
import Verif.RdNrelTime
import Verif.RdNrelSun
import Verif.RdNrelEq
import Verif.RdNrelPos
import Verif.RdNrelTopo
import Verif.RdNrelCell
import Verif.RdPole
import Verif.Props.RoundNrel
import Verif.Props.FloatAccuracy
import Verif.Props.Daylight
import Verif.Props.RoundMethods
import Verif.Props.RoundIrradiance
import Verif.Props.FloatDaylight
import Verif.Props.RoundExamples
import Verif.Chart
import Verif.Props.Chart
import Verif.RefrSpec
import Verif.Props.RefrAccuracy
import Verif.Props.FloatRefr
import Verif.Props.Continuity
import Verif.Props.DerivedAccuracy
import Verif.CliText
import Verif.Props.CliText
import Verif.RSign
import Verif.RdSign
import Verif.Props.DayNight
import Verif.Props.FloatNight
import Verif.Interp
import Verif.Props.Interp
import Verif.CliHead
import Verif.Props.CliHead
import Verif.BenchReport
import Verif.Props.BenchReport
import Verif.Props.AirDay
import Verif.BenchClear
import Verif.Props.BenchClear
import Verif.Labels
import Verif.Props.Labels
import Verif.Localize
import Verif.Props.Localize
import Verif.Tests
import Verif.Props.Tests
import Verif.Props.TestsFloat
import Verif.Meta
import Verif.Props.Meta
import Verif.Props.Corollaries
import Verif.Props.ContinuityFloat
import Verif.Props.Azimuth
import Verif.Props.Noon
import Verif.Install
import Verif.Props.Install
import Verif.Props.BenchAzimuth
import Verif.Heap
import Verif.Props.Heap
import Verif.Props.Seasons
import Verif.Props.Sides
import Verif.Props.Year
import Verif.Props.Turn
import Verif.Props.Equinox
import Verif.Speed
import Verif.Props.Speed
import Verif.BenchFigures
import Verif.Props.BenchFigures
import Verif.ChartFlags
import Verif.Props.ChartFlags
import Verif.SpeedFiles
import Verif.Props.SpeedFiles
import Verif.Props.Solstice
import Verif.Props.Apsides
import Verif.Props.Clock
import Verif.Props.Globe

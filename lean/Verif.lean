import Verif.Props.Almanac
import Verif.Props.AlmanacSearch
import Verif.Props.AngleConstants
import Verif.Props.AngleText
import Verif.Props.ApparentPlace
import Verif.Props.BuiltinTime
import Verif.Props.Calendar
import Verif.Props.Constellation
import Verif.Props.ConstellationNames
import Verif.Props.DataFiles
import Verif.Props.Datetimes
import Verif.Props.DefaultLoader
import Verif.Props.Deflection
import Verif.Props.DeltaT
import Verif.Props.DeltaTSteps
import Verif.Props.Descriptions
import Verif.Props.DistanceText
import Verif.Props.Download
import Verif.Props.EarthMotion
import Verif.Props.EarthRotation
import Verif.Props.Eclipse
import Verif.Props.ElementArrays
import Verif.Props.ElementSizes
import Verif.Props.ElementSums
import Verif.Props.Elements
import Verif.Props.ElementsOf
import Verif.Props.FixedFrames
import Verif.Props.FloatAngles
import Verif.Props.FloatCodes
import Verif.Props.FloatMaxima
import Verif.Props.FloatOrder
import Verif.Props.FloatSearch
import Verif.Props.FloatTime
import Verif.Props.Frames
import Verif.Props.FramesOfDate
import Verif.Props.Geoid
import Verif.Props.GeoidConstants
import Verif.Props.Geometry
import Verif.Props.Hills
import Verif.Props.Horizon
import Verif.Props.HourAngleRate
import Verif.Props.InnerPlanets
import Verif.Props.Kepler
import Verif.Props.KernelFile
import Verif.Props.LightTime
import Verif.Props.LitDisc
import Verif.Props.Loader
import Verif.Props.LunarSearch
import Verif.Props.MachineDates
import Verif.Props.Magnitude
import Verif.Props.Masses
import Verif.Props.Maxima
import Verif.Props.MeanAnomaly
import Verif.Props.MinorPlanets
import Verif.Props.MoonNodes
import Verif.Props.MovingTargets
import Verif.Props.Nutation
import Verif.Props.NutationRate
import Verif.Props.OrbitFile
import Verif.Props.Packed
import Verif.Props.Parallax
import Verif.Props.PassageSearch
import Verif.Props.Passes
import Verif.Props.PeriapsisTime
import Verif.Props.Places
import Verif.Props.PlanetaryFrames
import Verif.Props.PolarMotion
import Verif.Props.PolarVelocity
import Verif.Props.PositionAngle
import Verif.Props.Positions
import Verif.Props.PowerLoss
import Verif.Props.PowerLossLoad
import Verif.Props.ProgressBar
import Verif.Props.Projection
import Verif.Props.Propagate
import Verif.Props.PropagateArrays
import Verif.Props.Reify
import Verif.Props.Relativity
import Verif.Props.RiseFlags
import Verif.Props.RiseSet
import Verif.Props.Rotations
import Verif.Props.Satellite
import Verif.Props.SatelliteAltitude
import Verif.Props.SatelliteEvents
import Verif.Props.SatelliteFixed
import Verif.Props.Search
import Verif.Props.Seasons
import Verif.Props.SectorSearch
import Verif.Props.Settings
import Verif.Props.SettlingSearch
import Verif.Props.SkyCoordinates
import Verif.Props.Spherical
import Verif.Props.SplitSearch
import Verif.Props.Star
import Verif.Props.StarArrays
import Verif.Props.StarEpoch
import Verif.Props.StickyAngles
import Verif.Props.Sunrise
import Verif.Props.Tdb
import Verif.Props.TextPck
import Verif.Props.Threads
import Verif.Props.TimeArith
import Verif.Props.TimeArray
import Verif.Props.TimeBuild
import Verif.Props.TimeFormat
import Verif.Props.TimescaleData
import Verif.Props.TimescaleFiles
import Verif.Props.TleFile
import Verif.Props.TransitSearch
import Verif.Props.Transits
import Verif.Props.TrueAnomaly
import Verif.Props.Units
import Verif.Props.Utc
import Verif.Props.UtcText
import Verif.Props.VectorLabels
import Verif.Props.Vectors

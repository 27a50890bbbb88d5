import Verif.Lemmas.Approach
import Verif.Lemmas.ApseMotion
import Verif.Lemmas.AtmosphereCert
import Verif.Lemmas.AtmosphereCheck
import Verif.Lemmas.Bisect
import Verif.Lemmas.Conic
import Verif.Lemmas.ConicTime
import Verif.Lemmas.Dependence
import Verif.Lemmas.FloatGrid
import Verif.Lemmas.FloatSearch
import Verif.Lemmas.Frames
import Verif.Lemmas.Guidance
import Verif.Lemmas.Heating
import Verif.Lemmas.HyperClock
import Verif.Lemmas.Hyperbola
import Verif.Lemmas.Interp
import Verif.Lemmas.Kepler
import Verif.Lemmas.KeplerTime
import Verif.Lemmas.Lambert
import Verif.Lemmas.Lists
import Verif.Lemmas.Lits
import Verif.Lemmas.Maneuver
import Verif.Lemmas.Orbiter
import Verif.Lemmas.Piecewise
import Verif.Lemmas.Propagate
import Verif.Lemmas.QuadSpline
import Verif.Lemmas.Sight
import Verif.Lemmas.SonicCert
import Verif.Lemmas.SonicCheck
import Verif.Lemmas.Spline
import Verif.Lemmas.SplineCert
import Verif.Lemmas.SplineReal
import Verif.Lemmas.SplineSmooth
import Verif.Lemmas.SplineTable
import Verif.Lemmas.TrapezoidLimit
import Verif.Lemmas.Trapz
import Verif.Lemmas.TwoBody
import Verif.Lemmas.TwoBodyUnique
import Verif.Lemmas.WellPosed
import Verif.Model.Approach
import Verif.Model.AtmosphereData
import Verif.Model.Attributes
import Verif.Model.Conic
import Verif.Model.Corridor
import Verif.Model.Cubic
import Verif.Model.EntryPlots
import Verif.Model.Events
import Verif.Model.ExitState
import Verif.Model.FloatGrid
import Verif.Model.FloatLoad
import Verif.Model.FloatRestart
import Verif.Model.FloatRoll
import Verif.Model.FloatSearch
import Verif.Model.FloatTable
import Verif.Model.FloatVerdict
import Verif.Model.FloatVolume
import Verif.Model.Guidance
import Verif.Model.Heating
import Verif.Model.Interplanetary
import Verif.Model.Launcher
import Verif.Model.LauncherData
import Verif.Model.LauncherKinds
import Verif.Model.LinkReport
import Verif.Model.Maneuver
import Verif.Model.MonteCarlo
import Verif.Model.MonteCarloData
import Verif.Model.MonteCarloFiles
import Verif.Model.MonteCarloRows
import Verif.Model.Numpy
import Verif.Model.Orbit
import Verif.Model.Orbiter
import Verif.Model.Planet
import Verif.Model.Profiles
import Verif.Model.Py
import Verif.Model.Quadratic
import Verif.Model.Secant
import Verif.Model.Store
import Verif.Model.Telecom
import Verif.Model.Trajectory
import Verif.Model.Vehicle
import Verif.Model.Visibility
import Verif.Props.Aero
import Verif.Props.AfterExit
import Verif.Props.AngularMomentum
import Verif.Props.ApproachProps
import Verif.Props.ArrivalChecks
import Verif.Props.ArrivalFlown
import Verif.Props.ArrivalHandover
import Verif.Props.ArrivalOrbit
import Verif.Props.ArrivalVectors
import Verif.Props.BankSchedule
import Verif.Props.ClosestPass
import Verif.Props.ComesDown
import Verif.Props.Continuation
import Verif.Props.CorridorLimit
import Verif.Props.CorridorLimit2
import Verif.Props.CorridorProps
import Verif.Props.CubicAtmosphere
import Verif.Props.CurveFlight
import Verif.Props.DeflFlown
import Verif.Props.Deflected
import Verif.Props.Deflection
import Verif.Props.DensityCurve
import Verif.Props.DensityEstimate
import Verif.Props.DensityScaling
import Verif.Props.DiveEvent
import Verif.Props.DragCurve
import Verif.Props.DragOrder
import Verif.Props.Dynamics
import Verif.Props.EdgeCrossing
import Verif.Props.EnergyBalance
import Verif.Props.EnergyCap
import Verif.Props.EnergyDefect
import Verif.Props.EntryAtmosphere
import Verif.Props.EntryPlots
import Verif.Props.Equatorial
import Verif.Props.EscapeOrbiter
import Verif.Props.ExitMotion
import Verif.Props.ExitOrbit
import Verif.Props.ExitState
import Verif.Props.ExitVerdict
import Verif.Props.FlightTime
import Verif.Props.FloatGridProps
import Verif.Props.FloatLoad
import Verif.Props.FloatRestart
import Verif.Props.FloatRoll
import Verif.Props.FloatSearchProps
import Verif.Props.FloatTable
import Verif.Props.FloatVerdict
import Verif.Props.FloatVolume
import Verif.Props.GlideBalance
import Verif.Props.Grazing
import Verif.Props.GroundTrack
import Verif.Props.GuidanceProps
import Verif.Props.GuidedCaps
import Verif.Props.GuidedContinuation
import Verif.Props.GuidedExit
import Verif.Props.GuidedFlight
import Verif.Props.GuidedFlightCase
import Verif.Props.GuidedFlown
import Verif.Props.GuidedHistory
import Verif.Props.GuidedResults
import Verif.Props.GuidedStall
import Verif.Props.GuidedSwitch
import Verif.Props.GuidedTermination
import Verif.Props.HeatIntegral
import Verif.Props.HeatingProps
import Verif.Props.InsertionBurn
import Verif.Props.InsertionFlown
import Verif.Props.InterplanetaryProps
import Verif.Props.LauncherKinds
import Verif.Props.LiftDirection
import Verif.Props.LinkReport
import Verif.Props.Loads
import Verif.Props.ManeuverProps
import Verif.Props.MissingAttributes
import Verif.Props.MonteCarloFiles
import Verif.Props.MonteCarloHeat
import Verif.Props.MonteCarloProps
import Verif.Props.MonteCarloState
import Verif.Props.OrbitArrays
import Verif.Props.OrbitFlown
import Verif.Props.OrbitProps
import Verif.Props.OrbitTrim
import Verif.Props.OrbiterHandover
import Verif.Props.OrbiterProps
import Verif.Props.PeakLoads
import Verif.Props.PlanetProps
import Verif.Props.Pressures
import Verif.Props.ProbeEnters
import Verif.Props.ProbeEntryPoint
import Verif.Props.ProbeEscape
import Verif.Props.ProbeProps
import Verif.Props.ProbeSite
import Verif.Props.ProfileSpread
import Verif.Props.Profiles
import Verif.Props.PropagationOutcome
import Verif.Props.PropulsiveOrbit
import Verif.Props.PullUp
import Verif.Props.QuadAtmosphere
import Verif.Props.ReleaseFlown
import Verif.Props.Sampling
import Verif.Props.ScaleHeight
import Verif.Props.SecantFails
import Verif.Props.SecantRoot
import Verif.Props.SecantWide
import Verif.Props.Sensitivity
import Verif.Props.SensitivityAtm
import Verif.Props.ShippedAtmospheres
import Verif.Props.ShippedFlight
import Verif.Props.ShippedLaunchers
import Verif.Props.ShippedProfiles
import Verif.Props.Similarity
import Verif.Props.SlowsDown
import Verif.Props.SoundSpeed
import Verif.Props.StepHistories
import Verif.Props.StoreProps
import Verif.Props.SwitchedFlight
import Verif.Props.Tables
import Verif.Props.TelecomProps
import Verif.Props.TimedOrbit
import Verif.Props.TrajectoryProps
import Verif.Props.VisibilityBodies
import Verif.Props.VisibilityProps
import Verif.Spec.Bodies
import Verif.Spec.Corridor
import Verif.Spec.Entry
import Verif.Spec.Frames
import Verif.Spec.Kepler
import Verif.Spec.Link
import Verif.Spec.Near
import Verif.Spec.Ode
import Verif.Spec.Rotation
import Verif.Spec.Sight
import Verif.Spec.Switched
import Verif.Spec.Trapz
import Verif.Spec.TwoBody
import Verif.Spec.Vec3

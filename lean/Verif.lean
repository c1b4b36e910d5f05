import Verif.Num
import Verif.Constants
import Verif.Functions
import Verif.Libsnobal
import Verif.Input
import Verif.SnowState
import Verif.Snobal
import Verif.Driver
import Verif.PySnobal
import Verif.Cache
import Verif.Spatial
import Verif.Missing
import Verif.NanFunctions
import Verif.NanSnobal
import Verif.NanDriver
import Verif.Lemmas.Trace
import Verif.Lemmas.Config
import Verif.Lemmas.Hle
import Verif.Lemmas.Layers
import Verif.Lemmas.Invariant
import Verif.Lemmas.Steps
import Verif.Lemmas.StepInv
import Verif.Lemmas.Input
import Verif.Lemmas.Run
import Verif.Lemmas.Logged
import Verif.Lemmas.Complete
import Verif.Props.Forcing
import Verif.Props.Clock
import Verif.Props.Modes
import Verif.Lemmas.HleTotal
import Verif.Lemmas.Errors
import Verif.Props.Pack
import Verif.Props.Turbulence
import Verif.Props.Functions
import Verif.Props.Stability
import Verif.Props.Tables
import Verif.Lemmas.Ledger
import Verif.Lemmas.Outcome
import Verif.Lemmas.Chain
import Verif.Lemmas.RunTrace
import Verif.Lemmas.Admissible
import Verif.Lemmas.Water
import Verif.Lemmas.Records
import Verif.Props.Mass
import Verif.Props.Water
import Verif.Lemmas.OneStep
import Verif.Props.Bare
import Verif.Lemmas.Flux
import Verif.Props.Energy
import Verif.Lemmas.Fresh
import Verif.Props.Retention
import Verif.Props.Compaction
import Verif.Lemmas.StepRecords
import Verif.Props.Cold
import Verif.Props.NonNeg
import Verif.Lemmas.Witness
import Verif.Lemmas.WitnessRun
import Verif.Lemmas.WitnessRich
import Verif.Props.Surplus
import Verif.Props.Examples
import Verif.Props.Initial
import Verif.Props.Transitions
import Verif.Lemmas.Progress
import Verif.Lemmas.MassProgress
import Verif.Props.Progress
import Verif.Props.Capacity
import Verif.Props.StepLedger
import Verif.Props.Vapour
import Verif.Props.Formulas
import Verif.Props.MeltBound
import Verif.Props.ExamplesThaw
import Verif.Props.Start
import Verif.Props.Subdivision
import Verif.Props.Profile
import Verif.Props.Thermal
import Verif.Props.Examples2
import Verif.Props.Exchange
import Verif.Props.Unstable
import Verif.Lemmas.WitnessWind
import Verif.Props.Cover
import Verif.Props.ExamplesWind
import Verif.Lemmas.WitnessChill
import Verif.Props.ExamplesChill
import Verif.Format
import Verif.Props.Shift
import Verif.Props.Falls
import Verif.Props.ExamplesShift
import Verif.Props.Printed
import Verif.Props.Grid
import Verif.Lemmas.Located
import Verif.Props.Failure
import Verif.Props.Interpolation
import Verif.Props.IceWater
import Verif.Props.Clipping
import Verif.Props.Exceptions
import Verif.Props.MeltOut
import Verif.Props.PackEnergy
import Verif.Lemmas.WitnessDeep
import Verif.Props.ExamplesDeep
import Verif.Lemmas.WitnessFrost
import Verif.Props.Refreeze
import Verif.Props.ExamplesFrost
import Verif.Props.Radiation
import Verif.Props.ExamplesRadiation
import Verif.Props.HeatBudget
import Verif.Props.ExamplesHeat
import Verif.Props.Missing
import Verif.Props.ExamplesModes
import Verif.Props.ExamplesMissing
import Verif.Lemmas.NanNum
import Verif.Lemmas.NanSnow
import Verif.Lemmas.NanRun
import Verif.Lemmas.NanStep
import Verif.Lemmas.NanData
import Verif.Lemmas.NanHistory
import Verif.Lemmas.NanWitness
import Verif.Lemmas.NanTail
import Verif.Props.MissingRun
import Verif.Props.NanPack
import Verif.Props.ExamplesNan
import Verif.Lemmas.NanGap
import Verif.Lemmas.NanGapMass
import Verif.Lemmas.NanGapRun
import Verif.Props.NanGap
import Verif.Props.ExamplesNanGap
import Verif.Lemmas.NanRecover
import Verif.Props.NanRecover
import Verif.Props.ExamplesNanRecover
import Verif.Lemmas.NanBare
import Verif.Props.NanBare
import Verif.Props.ExamplesNanBare
import Verif.Lemmas.MassTies
import Verif.Props.Ties
import Verif.Props.ExamplesTies
import Verif.Props.TurbTies
import Verif.Props.ExamplesTurb
import Verif.Props.Thaw
import Verif.Props.ExamplesMelt
import Verif.Props.ExamplesMeltTie
import Verif.Lemmas.Memory
import Verif.Props.Resume
import Verif.Props.ExamplesResume
import Verif.Props.Held
import Verif.Props.ExamplesHeld
import Verif.Props.Ground
import Verif.Props.GroundDrop
import Verif.Props.ExamplesGround
import Verif.Props.GridPrep
import Verif.Props.Rain
import Verif.Props.ExamplesRain
import Verif.Lemmas.Follow
import Verif.Lemmas.Capacity2
import Verif.Lemmas.Hold
import Verif.Props.Holding
import Verif.Props.ExamplesHolding
import Verif.Props.Site
import Verif.Props.Levels
import Verif.Props.ExamplesSite
import Verif.Lemmas.ActiveStep
import Verif.Props.Active
import Verif.Props.ExamplesActive
import Verif.Lemmas.TholdStep
import Verif.Props.SmallThreshold
import Verif.Props.ExamplesSmallThreshold
import Verif.Lemmas.Thresholds
import Verif.Props.Thresholds
import Verif.Props.Interpolate
import Verif.Props.ExamplesInterpolate
import Verif.Lemmas.ModeLog
import Verif.Props.ModeHistory
import Verif.Props.CalmAir
import Verif.Props.ExamplesCalmAir
import Verif.Props.NetRadiation
import Verif.Props.ExamplesNetRadiation
import Verif.Props.LostStart
import Verif.Props.ExamplesLostStart
import Verif.Props.LightSnow
import Verif.Props.ExamplesLightSnow
import Verif.Props.ReversedWind
import Verif.Props.ExamplesReversedWind
import Verif.Props.Saturated
import Verif.Props.ExamplesSaturated
import Verif.Props.Settling
import Verif.Props.ExamplesSettling

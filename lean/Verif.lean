import Verif.Model.Num
import Verif.Model.Container
import Verif.Model.ContainerLemmas
import Verif.Model.Bricks
import Verif.Spec.Storage
import Verif.Props.Storage
import Verif.Props.Commit
import Verif.Model.Network
import Verif.Model.NetworkTrace
import Verif.Spec.Balance
import Verif.Model.BalanceLemmas
import Verif.Model.FeedForward
import Verif.Model.StepLemmas
import Verif.Props.Balance
import Verif.Props.BalanceExamples
import Verif.Props.Feasible
import Verif.Props.FeasibleExamples
import Verif.Model.Topology
import Verif.Props.Topology
import Verif.Model.Weights
import Verif.Props.Weights
import Verif.Model.Sequential
import Verif.Props.Sequential
import Verif.Model.Laws
import Verif.Model.LawLemmas
import Verif.Props.LawsWater
import Verif.Props.LawsSnow
import Verif.Model.Routing
import Verif.Props.Routing
import Verif.Props.Routing2
import Verif.Model.Lateral
import Verif.Props.Lateral
import Verif.Model.LandCover
import Verif.Props.LandCover
import Verif.Model.Glacier
import Verif.Props.Glacier
import Verif.Model.Calendar
import Verif.Props.Calendar
import Verif.Model.Actions
import Verif.Props.Actions
import Verif.Model.Series
import Verif.Model.Run
import Verif.Model.RunLemmas
import Verif.Model.Double
import Verif.Props.Clock
import Verif.Spec.Forcing
import Verif.Model.SeriesLemmas
import Verif.Model.ReadLemmas
import Verif.Props.Forcing
import Verif.Props.ForcingExamples
import Verif.Model.Reset
import Verif.Spec.Reset
import Verif.Props.Spinup
import Verif.Props.RunDates
import Verif.Props.Rerun
import Verif.Model.Settings
import Verif.Spec.Settings
import Verif.Model.SettingsLemmas
import Verif.Props.Settings
import Verif.Model.Structures
import Verif.Spec.Structures
import Verif.Props.Structures
import Verif.Model.Find
import Verif.Spec.Find
import Verif.Props.Find
import Verif.Model.TimeParams
import Verif.Spec.TimeParams
import Verif.Props.TimeParams
import Verif.Model.Totals
import Verif.Spec.Totals
import Verif.Props.Totals
import Verif.Model.UnitProps
import Verif.Spec.UnitProps
import Verif.Props.UnitProps
import Verif.Model.Names
import Verif.Spec.Names
import Verif.Props.Names
import Verif.Model.Author
import Verif.Model.Wiring
import Verif.Spec.Wiring
import Verif.Model.WiringLemmas
import Verif.Props.Wiring
import Verif.Props.Wiring2
import Verif.Props.Wiring3
import Verif.Props.BaseStructure
import Verif.Props.BaseStructure2
import Verif.Props.Params
import Verif.Model.DateText
import Verif.Spec.DateText
import Verif.Model.DateTextLemmas
import Verif.Model.DateTextWays
import Verif.Model.DateTextReading
import Verif.Props.DateText
import Verif.Model.Basin
import Verif.Spec.Basin
import Verif.Props.Basin
import Verif.Props.Basin2
import Verif.Model.Valid
import Verif.Spec.Valid
import Verif.Model.ValidLemmas
import Verif.Props.Valid
import Verif.Props.Valid2
import Verif.Spec.Assemble
import Verif.Model.Assemble
import Verif.Model.AssembleLemmas
import Verif.Model.AssembleOrder
import Verif.Model.AssembleFlux
import Verif.Model.AssembleNet
import Verif.Model.AssembleSums
import Verif.Props.Assemble
import Verif.Props.AssembleExamples
import Verif.Props.AssembleOverflow
import Verif.Spec.Predefined
import Verif.Model.Predefined
import Verif.Model.PredefinedLemmas
import Verif.Model.PredefinedPlan
import Verif.Model.PredefinedWF
import Verif.Model.PredefinedFwd
import Verif.Model.PredefinedModels
import Verif.Model.PredefinedRun
import Verif.Model.PredefinedGood
import Verif.Model.PredefinedHbv
import Verif.Model.PredefinedHbv2
import Verif.Model.PredefinedGr
import Verif.Props.Predefined
import Verif.Props.PredefinedExamples
import Verif.Spec.Ready
import Verif.Model.PredefinedReady
import Verif.Model.PredefinedReady2
import Verif.Model.PredefinedReady3
import Verif.Model.PredefinedReady4
import Verif.Props.Ready
import Verif.Spec.Equations
import Verif.Props.Equations
import Verif.Props.Equations2
import Verif.Spec.Precip
import Verif.Model.PrecipTime
import Verif.Model.PrecipSums
import Verif.Model.PrecipHand
import Verif.Model.PrecipRun
import Verif.Model.PrecipSplit
import Verif.Props.Precip
import Verif.Props.PrecipExamples
import Verif.Spec.Scheme
import Verif.Model.SchemeLemmas
import Verif.Model.SchemeModels
import Verif.Props.Scheme
import Verif.Props.SchemeExamples
import Verif.Spec.Exchange
import Verif.Props.Exchange
import Verif.Model.DirectStep
import Verif.Model.Gr4jUnit
import Verif.Model.Gr4jDays
import Verif.Model.Gr4jBuilt
import Verif.Model.Gr4jNet
import Verif.Model.Gr4jLaws
import Verif.Spec.Gr4j
import Verif.Spec.Gr4jStart
import Verif.Props.Gr4jRun
import Verif.Props.Gr4jBook
import Verif.Props.Gr4jSmooth
import Verif.Props.Gr4jNear
import Verif.Props.Gr4jExamples
import Verif.Props.Gr6jNear
import Verif.Props.Gr6jExamples
import Verif.Props.OverdraftExamples
import Verif.Spec.Overdraft
import Verif.Model.Overdraft
import Verif.Model.OverdraftBrick
import Verif.Props.Overdraft
import Verif.Spec.Apart
import Verif.Model.ApartLemmas
import Verif.Model.ApartStep
import Verif.Model.ApartSolve
import Verif.Props.Apart
import Verif.Model.ApartUnits
import Verif.Props.Apart2
import Verif.Model.Setup
import Verif.Spec.Setup
import Verif.Model.SetupLemmas
import Verif.Model.SetupLemmas2
import Verif.Model.SetupLemmas3
import Verif.Model.SetupLemmas4
import Verif.Props.Setup
import Verif.Props.SetupBalance
import Verif.Model.Results
import Verif.Spec.Results
import Verif.Model.ResultsLemmas
import Verif.Props.Results
import Verif.Model.ParamSet
import Verif.Spec.ParamSet
import Verif.Props.ParamSet
import Verif.Model.Terrain
import Verif.Spec.Terrain
import Verif.Model.TerrainLemmas
import Verif.Model.TerrainRows
import Verif.Props.Terrain
import Verif.Props.Terrain2
import Verif.Model.ForcingOps
import Verif.Spec.ForcingOps
import Verif.Model.ForcingOpsLemmas
import Verif.Props.ForcingOps
import Verif.Props.ForcingOps2
import Verif.Model.GlTable
import Verif.Spec.GlTable
import Verif.Model.GlTableLemmas
import Verif.Props.GlTable
import Verif.Model.GlScaling
import Verif.Spec.GlScaling
import Verif.Model.GlScalingLemmas
import Verif.Props.GlScaling
import Verif.Model.CoverTable
import Verif.Spec.CoverTable
import Verif.Props.CoverTable
import Verif.Model.Discretize
import Verif.Spec.Discretize
import Verif.Props.Discretize
import Verif.Props.Discretize2
import Verif.Props.Discretize3
import Verif.Model.UnitTable
import Verif.Spec.UnitTable
import Verif.Model.UnitTableLemmas
import Verif.Props.UnitTable
import Verif.Props.UnitTable2
import Verif.Props.UnitTable3
import Verif.Props.UnitTable4
import Verif.Model.Periods
import Verif.Spec.Periods
import Verif.Props.Periods
import Verif.Props.Periods2
import Verif.Props.Periods3
import Verif.Model.Calib
import Verif.Spec.Calib
import Verif.Props.Calib
import Verif.Props.Calib2
import Verif.Props.Calib3
import Verif.Model.MassBalance
import Verif.Spec.MassBalance
import Verif.Props.MassBalance
import Verif.Props.MassBalance2
import Verif.Model.SnowObs
import Verif.Spec.SnowObs
import Verif.Props.SnowObs
import Verif.Props.SnowObs2
import Verif.Props.SnowObs3
import Verif.Model.RefMetric
import Verif.Spec.RefMetric
import Verif.Props.RefMetric
import Verif.Props.RefMetric2
import Verif.Model.Regrid
import Verif.Spec.Regrid
import Verif.Props.Regrid
import Verif.Props.Regrid2
import Verif.Model.StructGraph
import Verif.Spec.StructGraph
import Verif.Props.StructGraph
import Verif.Props.StructGraph2
import Verif.Model.Shadow
import Verif.Spec.Shadow
import Verif.Props.Shadow
import Verif.Props.Shadow2
import Verif.Props.Shadow3
import Verif.Props.Shadow4
import Verif.Model.Solar
import Verif.Spec.Solar
import Verif.Props.Solar
import Verif.Props.Solar2
import Verif.Props.Solar3
import Verif.Model.CustomSpec
import Verif.Spec.CustomSpec
import Verif.Props.CustomSpec
import Verif.Props.CustomSpec2
import Verif.Props.CustomSpec3
import Verif.Model.UnitStats
import Verif.Props.UnitStats
import Verif.Model.ProjectFile
import Verif.Spec.ProjectFile
import Verif.Props.ProjectFile
import Verif.Props.ProjectFile2
import Verif.Props.ProjectFile3
import Verif.Props.ObsPairs
import Verif.Model.Hillshade
import Verif.Props.Hillshade
import Verif.Props.ProjectFile4
import Verif.Model.ProjectObs
import Verif.Props.ProjectObs
import Verif.Model.ProjectPeriods
import Verif.Props.ProjectPeriods

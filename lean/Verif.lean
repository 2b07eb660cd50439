import Verif.Props.Index
import Verif.Props.Pad
import Verif.Props.Pick
import Verif.Props.Weights
import Verif.Props.WaterWalk
import Verif.Props.FreeSurface
import Verif.Props.Flow
import Verif.Props.RouteWater
import Verif.Props.Sediment
import Verif.Props.Surface
import Verif.Props.SedWalk
import Verif.Props.SedRules
import Verif.Props.Diffusion
import Verif.Props.Timestep
import Verif.Props.Run
import Verif.Props.Output
import Verif.Props.FigName
import Verif.Props.Resume
import Verif.Props.Disk
import Verif.Props.Hooks
import Verif.Props.Config
import Verif.Props.Setup
import Verif.Props.Domain
import Verif.Props.Created
import Verif.Props.SaveFlags
import Verif.Props.Reals
import Verif.Props.Setters
import Verif.Model.TimeScale
import Verif.Model.Log
import Verif.Model.Strat
import Verif.Model.Expand
import Verif.Spec.Expand
import Verif.Props.TimeScale
import Verif.Props.Log
import Verif.Props.Strat
import Verif.Props.Expand
import Verif.Props.Ensemble
import Verif.Model.Jobs
import Verif.Model.SimEngine
import Verif.Model.Parallel
import Verif.Props.Jobs
import Verif.Props.Serial
import Verif.Props.Parallel
import Verif.Props.Shared
import Verif.Props.Override
import Verif.Model.FromConfig
import Verif.Props.FromConfig
import Verif.Props.Domain2
import Verif.Model.NcFile
import Verif.Spec.OutputFile
import Verif.Props.NcFile
import Verif.Spec.Weights
import Verif.Props.WeightRules
import Verif.Spec.Draws
import Verif.Props.Draws
import Verif.Spec.Mirror
import Verif.Props.Mirror
import Verif.Spec.Coupling
import Verif.Props.Coupling
import Verif.Props.MirrorWater
import Verif.Props.MirrorSediment
import Verif.Model.YamlText
import Verif.Spec.YamlText
import Verif.Spec.YamlRules
import Verif.Lemmas.YamlRules
import Verif.Props.YamlText
import Verif.Spec.Datum
import Verif.Props.Datum
import Verif.Spec.Budget
import Verif.Props.Budget
import Verif.Model.Assign
import Verif.Props.Assign
import Verif.Model.Process
import Verif.Props.Process
import Verif.Model.Debug
import Verif.Props.Debug
import Verif.Model.Table
import Verif.Props.Table
import Verif.Model.DictInput
import Verif.Props.DictInput
import Verif.Model.Loggers
import Verif.Props.Loggers
import Verif.Model.Branch
import Verif.Props.Branch
import Verif.Props.Centred
import Verif.Spec.Similar
import Verif.Props.Similar
import Verif.Spec.Passive
import Verif.Props.Passive
import Verif.Props.Watch
import Verif.Model.Float
import Verif.Lemmas.Float
import Verif.Model.Clock
import Verif.Spec.Clock
import Verif.Props.Clock
import Verif.Model.FloatWeights
import Verif.Props.FloatPick
import Verif.Model.FloatSediment
import Verif.Lemmas.FloatSediment
import Verif.Props.FloatSediment
import Verif.Props.FloatExchange
import Verif.Model.WholeRun
import Verif.Props.WholeRun
import Verif.Model.FloatWater
import Verif.Model.FloatTimestep
import Verif.Lemmas.FloatWater
import Verif.Props.FloatWater
import Verif.Props.FloatWalk
import Verif.Props.FloatFlow
import Verif.Props.FloatDischarge
import Verif.Props.FloatFields
import Verif.Props.FloatTimestep
import Verif.Props.FloatBudget
import Verif.Model.FloatRun
import Verif.Lemmas.FloatNcols
import Verif.Spec.Saved
import Verif.Props.FloatRun
import Verif.Props.FloatResume
import Verif.Spec.Bounded
import Verif.Props.Bounded
import Verif.Model.Defined
import Verif.Props.Defined
import Verif.Model.FloatDefined
import Verif.Props.FloatDefined
import Verif.Model.FloatSetup
import Verif.Props.FloatSetup
import Verif.Model.OutAssign
import Verif.Spec.OutAssign
import Verif.Props.OutAssign
import Verif.Model.CustomSave
import Verif.Spec.CustomSave
import Verif.Props.CustomSave
import Verif.Spec.Scour
import Verif.Props.Scour
import Verif.Spec.Chance
import Verif.Props.Chance
import Verif.Model.Custom
import Verif.Spec.Custom
import Verif.Props.Custom
import Verif.Props.DrawsRun
import Verif.Model.Campaign
import Verif.Props.Campaign
import Verif.Props.CampaignDisk
import Verif.Props.FloatChain
import Verif.Spec.SedSerial
import Verif.Props.SedSerial
import Verif.Spec.FloatSerial
import Verif.Props.FloatSerial
import Verif.Spec.Paths
import Verif.Props.Paths
import Verif.Props.PathLaw
import Verif.Model.InletRule
import Verif.Spec.InletRule
import Verif.Props.InletRule
import Verif.Model.DocClasses
import Verif.Spec.DocClasses
import Verif.Props.DocClasses
import Verif.Model.Series
import Verif.Spec.Series
import Verif.Props.Series
import Verif.Spec.Local
import Verif.Props.Local
import Verif.Model.Slope
import Verif.Props.Slope
import Verif.Model.Region
import Verif.Spec.Region
import Verif.Props.Region
import Verif.Model.Blobs
import Verif.Spec.Blobs
import Verif.Props.Blobs
import Verif.Spec.Reseed
import Verif.Props.Reseed
import Verif.Model.Calls
import Verif.Spec.Calls
import Verif.Props.Calls
import Verif.Spec.FloatLocal
import Verif.Props.FloatLocal
import Verif.Model.CustomResume
import Verif.Spec.CustomResume
import Verif.Props.CustomResume
import Verif.Spec.Settings
import Verif.Spec.FloatSettings
import Verif.Props.Settings
import Verif.Props.FloatSettings
import Verif.Props.FloatPassive
import Verif.Spec.Supply
import Verif.Props.Supply
import Verif.Props.FloatSupply
import Verif.Props.FloatSimilar
import Verif.Model.WaterParts
import Verif.Model.FloatWaterParts
import Verif.Spec.WaterParts
import Verif.Props.WaterParts
import Verif.Props.FloatWaterParts
import Verif.Spec.Parcels
import Verif.Props.Parcels
import Verif.Props.FloatParcels
import Verif.Model.NcSingle
import Verif.Spec.NcSingle
import Verif.Props.NcSingle

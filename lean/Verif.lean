import Verif.Model.AssocCompiled
import Verif.Props.Toolbox
import Verif.Props.SolveRoot
import Verif.Props.CentralDiff
import Verif.Props.Parallel
import Verif.Props.BeadData
import Verif.Proofs.ReadInput
import Verif.Props.ReadInput
import Verif.Props.CrossInteraction
import Verif.Model.CombiningDict
import Verif.Model.CentralDiff64
import Verif.Props.CombiningDict
import Verif.Props.CentralDiff64
import Verif.Props.CombiningRules
import Verif.Props.EosToolbox
import Verif.Props.Interface
import Verif.Proofs.PengRobinson
import Verif.Props.PengRobinson
import Verif.Props.PengRobinsonState
import Verif.Props.SaftToolbox
import Verif.Proofs.GammaMie
import Verif.Props.GammaMie
import Verif.Props.GammaSW
import Verif.Props.MiePotential
import Verif.Proofs.AssocXika
import Verif.Props.AssocXika
import Verif.Props.AssocCompiled
import Verif.Props.BondingVolume
import Verif.Props.AssocMatrices
import Verif.Props.AssocRun
import Verif.Props.SaftState
import Verif.Props.CheckDensity
import Verif.Props.PhaseDensity
import Verif.Props.Flash
import Verif.Proofs.CalcTypes
import Verif.Props.CalcTypes
import Verif.Props.BubbleDew
import Verif.Props.Objective
import Verif.Props.ObjectiveForm
import Verif.Props.FitInput
import Verif.Props.Constraints
import Verif.Proofs.DataClasses
import Verif.Props.DataClasses
import Verif.Model.GlobalMethods
import Verif.Props.GridMin
import Verif.Props.GlobalMethods
import Verif.Model.Dispatch
import Verif.Props.Dispatch
import Verif.Model.PressureVolume
import Verif.Props.PressureVolume
import Verif.Props.HardSphere
import Verif.Model.Saturation
import Verif.Props.Saturation
import Verif.Props.SharedWeights
import Verif.Model.Composition
import Verif.Props.Composition
import Verif.Model.NewComposition
import Verif.Props.NewComposition
import Verif.Model.PressureRange
import Verif.Props.PressureRange
import Verif.Model.DewRange
import Verif.Props.DewRange
import Verif.Model.SaftEnergy
import Verif.Props.SaftEnergy
import Verif.Props.BubbleGuess
import Verif.Props.AssocEnergy
import Verif.Props.AssocCombine
import Verif.Props.ContactSW
import Verif.Model.Consistency
import Verif.Model.Hildebrand
import Verif.Props.Consistency
import Verif.Props.Hildebrand
import Verif.Model.MieTerms
import Verif.Props.MieScaling
import Verif.Props.MieLimits
import Verif.Props.MieSymmetry
import Verif.Model.SWTerms
import Verif.Props.SWScaling
import Verif.Props.SWLimits
import Verif.Props.MergeMie
import Verif.Props.MergeSW
import Verif.Model.AssocIntegral
import Verif.Props.AssocIntegral
import Verif.Props.AssocRange
import Verif.Model.Binary64
import Verif.Props.Binary64
import Verif.Model.DataFile
import Verif.Props.DataFile
import Verif.Model.Construct
import Verif.Props.Construct
import Verif.Model.MieKernel
import Verif.Props.MieKernel
import Verif.Props.Library
import Verif.Model.Equilibrium
import Verif.Props.Equilibrium
import Verif.Props.PengRobinsonCritical
import Verif.Props.PengRobinsonSaturation
import Verif.Props.PengRobinsonDensity
import Verif.Model.FitEval
import Verif.Props.FitEval
import Verif.Model.FitHistory
import Verif.Props.FitHistory
import Verif.Model.GlobalOptions
import Verif.Props.GlobalOptions
import Verif.Model.Run
import Verif.Props.Run
import Verif.Model.Rows
import Verif.Props.Rows
import Verif.Model.Fit
import Verif.Props.Fit
import Verif.Props.EffectivePacking
import Verif.Props.EffectivePackingSW
import Verif.Props.ChainSW
import Verif.Props.SecondOrderSW
import Verif.Props.SecondOrderMie
import Verif.Props.Compression
import Verif.Props.LennardJones
import Verif.Props.Attraction
import Verif.Props.SaturationLine
import Verif.Props.PengRobinsonHeating
import Verif.Props.SaturationGrid
import Verif.Props.PureObjective
import Verif.Props.IdealGas
import Verif.Props.Raoult
import Verif.Props.IdealFlash
import Verif.Props.FallingObjective
import Verif.Props.RisingObjective
import Verif.Props.RaoultPoint
import Verif.Props.RaoultBatch
import Verif.Props.IdealActivity
import Verif.Props.SplineError
import Verif.Props.DensityAccuracy
import Verif.Props.Pressure64
import Verif.Model.Flash64
import Verif.Props.Rounding
import Verif.Props.Flash64
import Verif.Model.Equilibrium64
import Verif.Props.Equilibrium64
import Verif.Model.PressureVolume64
import Verif.Props.PressureVolume64
import Verif.Props.CondensationSW
import Verif.Model.Mixing64
import Verif.Props.Mixing64
import Verif.Model.Component64
import Verif.Props.Component64
import Verif.Model.Objective64
import Verif.Props.Objective64
import Verif.Model.Fugacity64
import Verif.Props.Fugacity64
import Verif.Model.Bubble64
import Verif.Props.Bubble64
import Verif.Model.DensityReach
import Verif.Props.DensityReach
import Verif.Model.IsothermOptions
import Verif.Props.IsothermWindow
import Verif.Props.AssocNegative
import Verif.Model.AssocContribution
import Verif.Props.AssocContribution
import Verif.Props.AssocStrong
import Verif.Model.PlotData
import Verif.Props.PlotData
import Verif.Props.AssocConverges
import Verif.Props.AssocBonded
import Verif.Model.SaturationRow
import Verif.Props.IsothermRows
import Verif.Model.PropertyRow
import Verif.Props.PropertyRows
import Verif.Props.IsothermFitting

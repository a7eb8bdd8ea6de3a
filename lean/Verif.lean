import Verif.Spec
import Verif.Model.Np
import Verif.Model.Labels
import Verif.Model.Domain
import Verif.Model.SplitMerge
import Verif.Model.Outputs
import Verif.Lemmas.Np
import Verif.Lemmas.SplitMerge
import Verif.Lemmas.Outputs
import Verif.Props.SplitMerge
import Verif.Props.Domain
import Verif.Props.Outputs
import Verif.Model.Dataset
import Verif.Props.Dataset
import Verif.Model.Splitters
import Verif.Lemmas.Splitters
import Verif.Props.Splitters
import Verif.Props.Stratified
import Verif.Props.Lodo
import Verif.Model.Selectors
import Verif.Lemmas.Selectors
import Verif.Props.Selectors
import Verif.Props.PerDomain
import Verif.Props.SelectDomain
import Verif.Model.Pipeline
import Verif.Lemmas.Pipeline
import Verif.Props.Pipeline
import Verif.Model.FrankWolfe
import Verif.Model.Reweight
import Verif.Lemmas.Arg
import Verif.Lemmas.FrankWolfe
import Verif.Lemmas.Reweight
import Verif.Props.FrankWolfe
import Verif.Props.Reweight
import Verif.Model.Mapping
import Verif.Lemmas.Monad
import Verif.Lemmas.Mapping
import Verif.Props.Mapping
import Verif.Model.Subspace
import Verif.Props.Subspace
import Verif.Model.OT
import Verif.Props.OT
import Verif.Model.SelfLabel
import Verif.Lemmas.SelfLabel
import Verif.Props.SelfLabel
import Verif.Props.Gradual
import Verif.Model.Subsample
import Verif.Model.Scorers
import Verif.Model.Deep
import Verif.Lemmas.Sampler
import Verif.Lemmas.DeepDataset
import Verif.Props.Sampler
import Verif.Props.DeepDataset
import Verif.Props.Subsample
import Verif.Lemmas.Entropy
import Verif.Lemmas.Scorers
import Verif.Props.Scorers
import Verif.Props.Scorers2
import Verif.Props.Mano
import Verif.Props.Generators
import Verif.Props.Circular
import Verif.Props.MixVal
import Verif.Lemmas.Kernel
import Verif.Model.DeepLosses
import Verif.Props.DeepCoral
import Verif.Props.DeepMMD
import Verif.Props.DeepCdd
import Verif.Props.DeepMcc
import Verif.Props.DeepNap
import Verif.Props.DeepGda
import Verif.Props.DeepJdot
import Verif.Model.SphKMeans
import Verif.Props.SphKMeans
import Verif.Model.DeepAdv
import Verif.Props.DeepAdv
import Verif.Props.DeepMdd
import Verif.Props.DeepSpa
import Verif.Props.DeepCdan
import Verif.Model.DeepTrain
import Verif.Lemmas.DeepTrain
import Verif.Props.DeepTrain
import Verif.Model.Centroids
import Verif.Props.DeepCentroids
import Verif.Props.DeepNet
import Verif.Props.DeepBalanced
import Verif.Model.DeepInput
import Verif.Props.DeepInput
import Verif.Model.DeepMethods
import Verif.Props.DeepMethods
import Verif.Model.PipelineRun
import Verif.Props.PipelineFit
import Verif.Props.PipelineRun
import Verif.Model.ShallowMethods
import Verif.Props.ShallowMethods
import Verif.Model.PipelineSteps
import Verif.Props.PipelineSteps
import Verif.Model.Jdot
import Verif.Props.Jdot
import Verif.Model.SelfLabelRun
import Verif.Props.SelfLabelRun
import Verif.Model.Cloned
import Verif.Props.Cloned
import Verif.Model.Ctor
import Verif.Lemmas.Ctor
import Verif.Props.Ctor
import Verif.Props.Factories
import Verif.Model.Loaders
import Verif.Lemmas.Loaders
import Verif.Props.Loaders
import Verif.Model.Optim
import Verif.Props.Optim
import Verif.Props.MmdLs
import Verif.Props.Tsl
import Verif.Model.Kliep
import Verif.Props.KliepObj
import Verif.Model.Share
import Verif.Props.Share
import Verif.Model.QpScipy
import Verif.Props.QpScipy
import Verif.Props.KmmQp
import Verif.Props.TarsQp
import Verif.Model.Dev
import Verif.Props.Dev
import Verif.Props.ScorerLabels
import Verif.Model.Routing
import Verif.Spec.Routing
import Verif.Props.Routing
import Verif.Model.DeepModules
import Verif.Props.DeepModules
import Verif.Model.CrossVal
import Verif.Props.CrossVal
import Verif.Model.History
import Verif.Props.History
import Verif.Spec.Sides
import Verif.Lemmas.Sides
import Verif.Props.Sides
import Verif.Props.SidesScores
import Verif.Spec.Documented
import Verif.Props.Documented
import Verif.Spec.Order
import Verif.Lemmas.Order
import Verif.Lemmas.OrderSteps
import Verif.Lemmas.OrderAdapters
import Verif.Props.Order
import Verif.Spec.Batch
import Verif.Lemmas.Batch
import Verif.Props.Batch
import Verif.Spec.Names
import Verif.Lemmas.Names
import Verif.Props.Names
import Verif.Spec.Geometry
import Verif.Props.Geometry
import Verif.Props.Weights
import Verif.Spec.NoShift
import Verif.Props.NoShift
import Verif.Props.NoShiftOT
import Verif.Spec.Replicate
import Verif.Lemmas.Replicate
import Verif.Props.Replicate
import Verif.Props.Twice
import Verif.Props.Exchange
import Verif.Props.Hooks
import Verif.Props.Life
import Verif.Props.Rng
import Verif.Props.RngFolds
import Verif.Props.RngCounts
import Verif.Props.Rotation
import Verif.Props.Units
import Verif.Spec.RngRename
import Verif.Props.RngRename
import Verif.Props.ReplicateKmm
import Verif.Props.ReplicateMonge
import Verif.Props.ReplicateOt
import Verif.Props.ReplicateLp
import Verif.Props.ReplicateSinkhorn

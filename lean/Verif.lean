import Verif.Acoustic.Adjoint
import Verif.Acoustic.Backward
import Verif.Acoustic.Energy
import Verif.Acoustic.Forward
import Verif.Acoustic.GradAll
import Verif.Acoustic.Linear
import Verif.Acoustic.Mirror
import Verif.Acoustic.Model
import Verif.Acoustic.NegDt
import Verif.Acoustic.OnGrid
import Verif.Acoustic.Python
import Verif.Acoustic.Reciprocity
import Verif.Acoustic.Shots
import Verif.Acoustic.User
import Verif.Acoustic.UserBackend
import Verif.Acoustic.UserGrad
import Verif.Acoustic.UserGradBackend
import Verif.Born.Adjoint
import Verif.Born.Backward
import Verif.Born.Double
import Verif.Born.Forward
import Verif.Born.GradAll
import Verif.Born.Mirror
import Verif.Born.Model
import Verif.Born.Python
import Verif.Born.Shots
import Verif.Born.User
import Verif.Born.UserBackend
import Verif.Born.UserGrad
import Verif.Born.UserGradBackend
import Verif.Core.Batch
import Verif.Core.Dot
import Verif.Core.Driver
import Verif.Core.Energy
import Verif.Core.Flat
import Verif.Core.Loop
import Verif.Core.Mirror
import Verif.Core.Py
import Verif.Core.PyLoop
import Verif.Core.Reciprocity
import Verif.Core.Regions
import Verif.Core.Staggered
import Verif.Core.StaggeredBound
import Verif.Core.Stencil
import Verif.Core.Steps
import Verif.Elastic.Adjoint
import Verif.Elastic.Backward
import Verif.Elastic.Energy
import Verif.Elastic.EnergyBound
import Verif.Elastic.EnergyUser
import Verif.Elastic.Forward
import Verif.Elastic.GradAll
import Verif.Elastic.Linear
import Verif.Elastic.Mirror
import Verif.Elastic.Model
import Verif.Elastic.NegDt
import Verif.Elastic.OnGrid
import Verif.Elastic.Python
import Verif.Elastic.Reciprocity
import Verif.Elastic.Scale
import Verif.Elastic.Shots
import Verif.Elastic.User
import Verif.Elastic.UserBackend
import Verif.Elastic.UserGrad
import Verif.Elastic.UserGradBackend
import Verif.Elastic.Warnings
import Verif.Gpu.Acoustic
import Verif.Gpu.Batch
import Verif.Gpu.Born
import Verif.Gpu.Compress
import Verif.Gpu.Elastic
import Verif.Gpu.InOrder
import Verif.Gpu.Kernel
import Verif.Gpu.Races
import Verif.Gpu.Scalar
import Verif.Gpu.Snapshots
import Verif.Gpu.Storage
import Verif.Gpu.StorageLemmas
import Verif.Gpu.StorageRun
import Verif.Gpu.Stream
import Verif.Hicks.Alone
import Verif.Hicks.Lemmas
import Verif.Hicks.Model
import Verif.Hicks.Surface
import Verif.Interface.Autograd
import Verif.Interface.Backends
import Verif.Interface.CSignatures
import Verif.Interface.Callbacks
import Verif.Interface.Guards
import Verif.Interface.Kinds
import Verif.Interface.Module
import Verif.Interface.ModuleLemmas
import Verif.Interface.PyNames
import Verif.Interface.Python
import Verif.Interface.Selection
import Verif.Props.Acoustic
import Verif.Props.AcousticEnergy
import Verif.Props.AcousticLinear
import Verif.Props.AcousticMore
import Verif.Props.AcousticScheme
import Verif.Props.Autograd
import Verif.Props.Backends
import Verif.Props.Born
import Verif.Props.BornMore
import Verif.Props.BornReciprocity
import Verif.Props.BornScheme
import Verif.Props.Bounds
import Verif.Props.Callbacks
import Verif.Props.Cfl
import Verif.Props.Convert
import Verif.Props.DoubleBackward
import Verif.Props.Elastic
import Verif.Props.ElasticEnergy
import Verif.Props.ElasticLinear
import Verif.Props.ElasticMore
import Verif.Props.ElasticScheme
import Verif.Props.Equations
import Verif.Props.GpuCompress
import Verif.Props.GpuKernels
import Verif.Props.GpuScalar
import Verif.Props.GpuStorage
import Verif.Props.GpuStreams
import Verif.Props.Guards
import Verif.Props.Hicks
import Verif.Props.Interface
import Verif.Props.Mirror
import Verif.Props.Modules
import Verif.Props.Pml
import Verif.Props.PmlStaggered
import Verif.Props.Reciprocity
import Verif.Props.Resample
import Verif.Props.ScalarBackward
import Verif.Props.ScalarEnergy
import Verif.Props.ScalarForward
import Verif.Props.ScalarPython
import Verif.Props.ScalarReciprocity
import Verif.Props.ScalarShots
import Verif.Props.ScalarUser
import Verif.Props.ScalarUserMore
import Verif.Props.Selection
import Verif.Props.Setup
import Verif.Props.Shots
import Verif.Props.Stencil
import Verif.Props.Storage
import Verif.Props.Survey
import Verif.Props.Tables
import Verif.Props.TempFiles
import Verif.Props.UserAxes
import Verif.Props.UserAxesMore
import Verif.Props.UserBackendAcoustic
import Verif.Props.UserBackendBorn
import Verif.Props.UserBackendElastic
import Verif.Props.UserBackendExamples
import Verif.Props.UserBackendScalar
import Verif.Props.UserBornDerivative
import Verif.Props.UserCallbacks
import Verif.Props.UserConvolve
import Verif.Props.UserCopies
import Verif.Props.UserCrop
import Verif.Props.UserDelay
import Verif.Props.UserDelayMore
import Verif.Props.UserDensity
import Verif.Props.UserDot
import Verif.Props.UserEdges
import Verif.Props.UserExamples
import Verif.Props.UserFluid
import Verif.Props.UserGradAcoustic
import Verif.Props.UserGradBackendAcoustic
import Verif.Props.UserGradBackendBorn
import Verif.Props.UserGradBackendElastic
import Verif.Props.UserGradBackendExamples
import Verif.Props.UserGradBackendScalar
import Verif.Props.UserGradBorn
import Verif.Props.UserGradCausal
import Verif.Props.UserGradElastic
import Verif.Props.UserGradFar
import Verif.Props.UserGradLinear
import Verif.Props.UserGradNear
import Verif.Props.UserGradScalar
import Verif.Props.UserGradShort
import Verif.Props.UserLinearAcoustic
import Verif.Props.UserLinearBorn
import Verif.Props.UserLinearElastic
import Verif.Props.UserMirror
import Verif.Props.UserMirrorMore
import Verif.Props.UserMove
import Verif.Props.UserNear
import Verif.Props.UserOrder
import Verif.Props.UserOrderMore
import Verif.Props.UserReciprocityAcoustic
import Verif.Props.UserReciprocityBorn
import Verif.Props.UserReciprocityElastic
import Verif.Props.UserResumeAcoustic
import Verif.Props.UserResumeBorn
import Verif.Props.UserResumeElastic
import Verif.Props.UserReturns
import Verif.Props.UserReverse
import Verif.Props.UserScale
import Verif.Props.UserScatter
import Verif.Props.UserScheme
import Verif.Props.UserShots
import Verif.Props.UserSign
import Verif.Props.UserStable
import Verif.Props.UserTune
import Verif.Props.UserWarnings
import Verif.Props.Validate
import Verif.Resample.Lemmas
import Verif.Resample.Linear
import Verif.Resample.Model
import Verif.Scalar.Adjoint
import Verif.Scalar.Backward
import Verif.Scalar.Example
import Verif.Scalar.Flat
import Verif.Scalar.Forward
import Verif.Scalar.GradAll
import Verif.Scalar.Gradient
import Verif.Scalar.Linear
import Verif.Scalar.Mirror
import Verif.Scalar.Model
import Verif.Scalar.OnGrid
import Verif.Scalar.Python
import Verif.Scalar.Reciprocity
import Verif.Scalar.Ref
import Verif.Scalar.Shots
import Verif.Scalar.Stability
import Verif.Scalar.User
import Verif.Scalar.UserBackend
import Verif.Scalar.UserGrad
import Verif.Scalar.UserGradBackend
import Verif.Scalar.UserWF
import Verif.Scalar.Visits
import Verif.Setup.Autograd
import Verif.Setup.AutogradShot
import Verif.Setup.Axes
import Verif.Setup.Blocks
import Verif.Setup.Cfl
import Verif.Setup.Convert
import Verif.Setup.Coords
import Verif.Setup.Crop
import Verif.Setup.Delay
import Verif.Setup.Distinct
import Verif.Setup.Exchange
import Verif.Setup.Linear
import Verif.Setup.Mirror
import Verif.Setup.Part
import Verif.Setup.Pml
import Verif.Setup.Propagator
import Verif.Setup.PropagatorLemmas
import Verif.Setup.Reorder
import Verif.Setup.Resume
import Verif.Setup.Revalue
import Verif.Setup.SamePlan
import Verif.Setup.Select
import Verif.Setup.Shot
import Verif.Setup.Survey
import Verif.Setup.SurveyLemmas
import Verif.Setup.Validate
import Verif.Setup.Warnings
import Verif.Spec.Acoustic
import Verif.Spec.Axes
import Verif.Spec.Before
import Verif.Spec.Born
import Verif.Spec.Delay
import Verif.Spec.Elastic
import Verif.Spec.Fluid
import Verif.Spec.Grid
import Verif.Spec.Inside
import Verif.Spec.Mirror
import Verif.Spec.MirrorStaggered
import Verif.Spec.Move
import Verif.Spec.Near
import Verif.Spec.Reverse
import Verif.Spec.Scale
import Verif.Spec.Stencil
import Verif.Spec.Sum
import Verif.Storage.Exec
import Verif.Storage.Files
import Verif.Storage.Lemmas
import Verif.Storage.Model
import Verif.Storage.Shot

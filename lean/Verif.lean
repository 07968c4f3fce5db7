import Verif.Model.Basic
import Verif.Model.MatrixOps
import Verif.Model.MatrixOpsBlas
import Verif.Model.RealOps
import Verif.Model.Activation
import Verif.Proofs.Activation
import Verif.Properties.Kernels
import Verif.Properties.Activation
import Verif.Properties.Predict
import Verif.Properties.Params
import Verif.Properties.Names
import Verif.Properties.Backprop
import Verif.Properties.Gradient
import Verif.Properties.Metrics
import Verif.Properties.Batch
import Verif.Properties.Evaluate
import Verif.Properties.BatchBlas
import Verif.Properties.Shuffle
import Verif.Properties.Training
import Verif.Properties.RunEpoch
import Verif.Properties.TrainCode
import Verif.Properties.Callbacks
import Verif.Properties.Logger
import Verif.Properties.Progress
import Verif.Properties.Npy
import Verif.Properties.Create
import Verif.Properties.Initialize
import Verif.Properties.NpyList
import Verif.Properties.SaveLoad
import Verif.Properties.Exp256
import Verif.Properties.SoftmaxRange
import Verif.Properties.InitStream
import Verif.Model.B32
import Verif.Proofs.B32
import Verif.Proofs.FloatModel
import Verif.Proofs.RoundErr
import Verif.Proofs.RoundDot
import Verif.Spec.Rounding
import Verif.Properties.Rounding
import Verif.Proofs.B32Mono
import Verif.Proofs.ExpFloat
import Verif.Spec.Libm
import Verif.Proofs.ActFloat
import Verif.Properties.Exp256Float
import Verif.Spec.NetError
import Verif.Proofs.SoftmaxFloat
import Verif.Spec.NetFloat
import Verif.Proofs.NetFloat
import Verif.Properties.NetFloat
import Verif.Model.Lifecycle
import Verif.Proofs.OptAny
import Verif.Proofs.InitFloat
import Verif.Properties.InitFloat
import Verif.Properties.Lifecycle
import Verif.Model.Objects
import Verif.Properties.Objects
import Verif.Properties.NanFloat
import Verif.Properties.Descent
import Verif.Model.Idx
import Verif.Properties.Idx
import Verif.Properties.EvalFloat
import Verif.Proofs.OptFloat
import Verif.Properties.OptFloat
import Verif.Spec.BackFloat
import Verif.Proofs.DerivFloat
import Verif.Proofs.BackFloat
import Verif.Proofs.BackSmall
import Verif.Properties.BackFloat
import Verif.Spec.BatchFloat
import Verif.Proofs.BatchFloat
import Verif.Properties.BatchFloat
import Verif.Model.Threads
import Verif.Spec.Threads
import Verif.Proofs.Threads
import Verif.Properties.Threads
import Verif.Model.Examples
import Verif.Proofs.B32Zero
import Verif.Proofs.Examples
import Verif.Properties.Examples
import Verif.Model.Trainer
import Verif.Proofs.CompareB32
import Verif.Proofs.Trainer
import Verif.Properties.Trainer
import Verif.Model.DynLoad
import Verif.Properties.DynLoad
import Verif.Proofs.CustomGrad
import Verif.Model.Custom
import Verif.Properties.Custom
import Verif.Model.HowTo
import Verif.Spec.HowTo
import Verif.Properties.HowTo
import Verif.Spec.Widths
import Verif.Properties.Widths
import Verif.Model.TestSgd
import Verif.Spec.TestSgd
import Verif.Proofs.TestSgd
import Verif.Properties.TestSgd
import Verif.Model.Example02
import Verif.Spec.Example02
import Verif.Proofs.Example02
import Verif.Properties.Example02
import Verif.Properties.ProgressRange
import Verif.Properties.NpyMap
import Verif.Properties.IdxMemory
import Verif.Properties.InitNull
import Verif.Properties.TrainerArgs
import Verif.Model.UnitSgd
import Verif.Proofs.UnitSgd
import Verif.Properties.UnitSgd
import Verif.Model.OddSizes
import Verif.Proofs.OddSizes
import Verif.Properties.OddSizes
import Verif.Model.GradCheck
import Verif.Proofs.GradCheck
import Verif.Proofs.GradCheckNet
import Verif.Proofs.GradCheckRun
import Verif.Properties.GradCheck
import Verif.Model.TestNet
import Verif.Proofs.TestNet
import Verif.Proofs.TestNetRun
import Verif.Properties.TestNet
import Verif.Model.LoadMem
import Verif.Proofs.LoadMem
import Verif.Properties.LoadMem
import Verif.Properties.MetricsFloat
import Verif.Model.NpyUnmap
import Verif.Properties.NpyUnmap
import Verif.Properties.NpyAny
import Verif.Properties.LoadExact
import Verif.Properties.NpyShift

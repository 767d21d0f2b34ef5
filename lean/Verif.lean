import Verif.Go.Basic
import Verif.Go.Binary64
import Verif.Go.Exact
import Verif.Go.Float
import Verif.Go.FloatEq
import Verif.Go.FloatNaN
import Verif.Go.Heap
import Verif.Go.Memory
import Verif.Go.Real
import Verif.Go.Strings
import Verif.Spec.Active
import Verif.Spec.Adam
import Verif.Spec.Argmax
import Verif.Spec.Bucket
import Verif.Spec.Bufio
import Verif.Spec.Configuration
import Verif.Spec.Dead
import Verif.Spec.Drift
import Verif.Spec.Driver
import Verif.Spec.Empty
import Verif.Spec.Family
import Verif.Spec.FirstStep
import Verif.Spec.Gradient
import Verif.Spec.Init
import Verif.Spec.Json
import Verif.Spec.JsonWrite
import Verif.Spec.Layer
import Verif.Spec.LeftOver
import Verif.Spec.Loss
import Verif.Spec.Lsh
import Verif.Spec.Minhash
import Verif.Spec.Mode3
import Verif.Spec.Network
import Verif.Spec.New
import Verif.Spec.Node
import Verif.Spec.Order
import Verif.Spec.ParseFloat
import Verif.Spec.Positional
import Verif.Spec.Program
import Verif.Spec.Random
import Verif.Spec.SameExample
import Verif.Spec.Srp
import Verif.Spec.Train
import Verif.Spec.Unseen
import Verif.Spec.Vector
import Verif.Spec.Xcrepo
import Verif.Model.Bucket
import Verif.Model.Bufio
import Verif.Model.Configuration
import Verif.Model.Driver
import Verif.Model.Driver64
import Verif.Model.Dwta
import Verif.Model.Fifo
import Verif.Model.Json
import Verif.Model.Layer
import Verif.Model.Lsh
import Verif.Model.Minhash
import Verif.Model.Network
import Verif.Model.Node
import Verif.Model.ParseFloat
import Verif.Model.Program
import Verif.Model.Srp
import Verif.Model.Wta
import Verif.Model.Xcrepo
import Verif.Proofs.Active
import Verif.Proofs.ActiveBound
import Verif.Proofs.AdamBound
import Verif.Proofs.AdamLife
import Verif.Proofs.Argmax
import Verif.Proofs.BatchShare
import Verif.Proofs.Binary64
import Verif.Proofs.Binary64Range
import Verif.Proofs.Bucket
import Verif.Proofs.Bufio
import Verif.Proofs.Cells
import Verif.Proofs.Dead
import Verif.Proofs.Draws
import Verif.Proofs.Driver
import Verif.Proofs.Driver64
import Verif.Proofs.Dwta
import Verif.Proofs.Empty
import Verif.Proofs.Fifo
import Verif.Proofs.GoBasic
import Verif.Proofs.GradBack
import Verif.Proofs.GradBatch
import Verif.Proofs.GradExample
import Verif.Proofs.GradLayer
import Verif.Proofs.GradParam
import Verif.Proofs.GradReal
import Verif.Proofs.GradStill
import Verif.Proofs.Hashers
import Verif.Proofs.Heap
import Verif.Proofs.Init
import Verif.Proofs.Json
import Verif.Proofs.LayerAct
import Verif.Proofs.LayerFresh
import Verif.Proofs.LayerKeeps
import Verif.Proofs.LayerLoad
import Verif.Proofs.LayerMode4
import Verif.Proofs.LayerModes
import Verif.Proofs.LayerNew
import Verif.Proofs.LayerQuery
import Verif.Proofs.LayerSoftmax
import Verif.Proofs.Likelihood
import Verif.Proofs.ListAux
import Verif.Proofs.Lsh
import Verif.Proofs.LshIndex
import Verif.Proofs.LshShape
import Verif.Proofs.LshSmall
import Verif.Proofs.Memory
import Verif.Proofs.MemoryOf
import Verif.Proofs.Minhash
import Verif.Proofs.Mode3
import Verif.Proofs.NaN
import Verif.Proofs.NetworkAdam
import Verif.Proofs.NetworkBack
import Verif.Proofs.NetworkBackLayer
import Verif.Proofs.NetworkFinish
import Verif.Proofs.NetworkForward
import Verif.Proofs.NetworkKeeps
import Verif.Proofs.NetworkLife
import Verif.Proofs.NetworkNew
import Verif.Proofs.NetworkPredict
import Verif.Proofs.NetworkProgress
import Verif.Proofs.NetworkReady
import Verif.Proofs.NetworkRep
import Verif.Proofs.NetworkRng
import Verif.Proofs.NetworkSafe
import Verif.Proofs.NetworkSettled
import Verif.Proofs.NetworkShape
import Verif.Proofs.NetworkStatic
import Verif.Proofs.NetworkTrain
import Verif.Proofs.NetworkUnique
import Verif.Proofs.NewRun
import Verif.Proofs.Node
import Verif.Proofs.NodeBack
import Verif.Proofs.NodeCow
import Verif.Proofs.NodeGroup
import Verif.Proofs.NodeMore
import Verif.Proofs.NodeOnly
import Verif.Proofs.NodeOps
import Verif.Proofs.NodeReady
import Verif.Proofs.NodeUse
import Verif.Proofs.NodeVec
import Verif.Proofs.NodeZip
import Verif.Proofs.OrderStep
import Verif.Proofs.Pace
import Verif.Proofs.ParseFloat
import Verif.Proofs.Pattern
import Verif.Proofs.PermTables
import Verif.Proofs.Program
import Verif.Proofs.SameExample
import Verif.Proofs.Shuffle
import Verif.Proofs.ShuffleUniform
import Verif.Proofs.SparseHash
import Verif.Proofs.Srp
import Verif.Proofs.Strings
import Verif.Proofs.TablesHold
import Verif.Proofs.Unseen
import Verif.Proofs.Wta
import Verif.Proofs.Xcrepo
import Verif.Proofs.XcrepoIO
import Verif.Props.Active
import Verif.Props.Adam
import Verif.Props.BatchOrder
import Verif.Props.Binary64
import Verif.Props.Bucket
import Verif.Props.Bufio
import Verif.Props.Collision
import Verif.Props.Configuration
import Verif.Props.Dead
import Verif.Props.Drift
import Verif.Props.Driver
import Verif.Props.Driver64
import Verif.Props.Dwta
import Verif.Props.Empty
import Verif.Props.Family
import Verif.Props.FirstStep
import Verif.Props.FromBytes
import Verif.Props.Gradient
import Verif.Props.Init
import Verif.Props.Json
import Verif.Props.Layer
import Verif.Props.LayerLoad
import Verif.Props.LayerNew
import Verif.Props.LeftOver
import Verif.Props.LogBinSize
import Verif.Props.Lsh
import Verif.Props.Minhash
import Verif.Props.Mode3
import Verif.Props.Multipliers
import Verif.Props.NaN
import Verif.Props.Network
import Verif.Props.NetworkCow
import Verif.Props.Node
import Verif.Props.ParseFloat
import Verif.Props.Program
import Verif.Props.Progress
import Verif.Props.Random
import Verif.Props.Rehash
import Verif.Props.SameExample
import Verif.Props.Softmax
import Verif.Props.SparseHash
import Verif.Props.Srp
import Verif.Props.Train
import Verif.Props.Unbiased
import Verif.Props.UnitTests
import Verif.Props.Unseen
import Verif.Props.Wta
import Verif.Props.WtaRandom
import Verif.Props.Xcrepo

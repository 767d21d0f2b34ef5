import Verif.Go.Memory
import Verif.Go.Float
import Verif.Model.Configuration
/-
Model of node/node.go.

Pointers and slices are explicit, because the copy-on-write of the code and the sharing of arrays between
the nodes of a layer are what the properties are about. Every kind of object has its own store.
`float64` contractions (fused multiply-add, allowed by the Go specification) are not modelled.
-/
namespace Goslide.Node
open Configuration
variable {F : Type} [GoFloat F]

/-- node/node_type.go:7-12 -/
abbrev NodeType := Int
/-- node/node_type.go:10 -/
def ReLU : NodeType := 0
/-- node/node_type.go:11 -/
def Softmax : NodeType := 1

/-- node/node.go:12-16 -/
structure Node where
  cowId : Int
  base : Ptr
  train : Slice
deriving Repr, DecidableEq

/-- node/node.go:18-33 -/
structure BaseNode (F : Type) where
  cowId : Int
  nodeType : NodeType
  currentBatchsize : Int
  idInLayer : Int
  weights : Slice
  mirrorWeights : Slice
  adamAvgMom : Slice
  adamAvgVel : Slice
  t : Slice
  bias : F
  tBias : F
  adamAvgMomBias : F
  adamAvgVelBias : F
  mirrorBias : F
deriving Repr, DecidableEq

/-- node/node.go:35-40. `activeinputIds` is a float64 that only ever holds 0 or 1 and is only compared with
1: modelled as a Boolean. -/
structure NodeTrain (F : Type) where
  cowId : Int
  lastDeltaforBPs : F
  lastActivations : F
  activeinputIds : Bool
deriving Repr, DecidableEq

/-- The memory of package node: float64 arrays, arrays of `*NodeTrain`, arrays of `*Node`, objects. -/
structure Heap (F : Type) where
  floats : List (List F)
  trainArrs : List (List Ptr)
  nodeArrs : List (List Ptr)
  trains : List (NodeTrain F)
  bases : List (BaseNode F)
  nodes : List Node
deriving Repr, DecidableEq

/-- The empty memory. -/
def Heap.empty : Heap F := { floats := [], trainArrs := [], nodeArrs := [], trains := [], bases := [], nodes := [] }

/-- Computations on this memory. -/
abbrev NM (F : Type) := M (Heap F)

/-- `make([]float64, ..)` filled with `l`. -/
def allocFloats (l : List F) : NM F Slice := fun h =>
  .ok ({ arr := h.floats.length, off := 0, len := l.length }, { h with floats := h.floats ++ [l] })
/-- `make([]*NodeTrain, ..)` filled with `l`. -/
def allocTrainArr (l : List Ptr) : NM F Slice := fun h =>
  .ok ({ arr := h.trainArrs.length, off := 0, len := l.length }, { h with trainArrs := h.trainArrs ++ [l] })
/-- `make([]*Node, ..)` filled with `l`. -/
def allocNodeArr (l : List Ptr) : NM F Slice := fun h =>
  .ok ({ arr := h.nodeArrs.length, off := 0, len := l.length }, { h with nodeArrs := h.nodeArrs ++ [l] })
/-- `&NodeTrain{..}` -/
def allocTrain (t : NodeTrain F) : NM F Ptr := fun h => .ok (h.trains.length, { h with trains := h.trains ++ [t] })
/-- `&baseNode{..}` -/
def allocBase (b : BaseNode F) : NM F Ptr := fun h => .ok (h.bases.length, { h with bases := h.bases ++ [b] })
/-- `&Node{..}` -/
def allocNode (n : Node) : NM F Ptr := fun h => .ok (h.nodes.length, { h with nodes := h.nodes ++ [n] })

/-- `*p` for a `*Node`. -/
def node (p : Ptr) : NM F Node := fun h => (deref h.nodes p).map (fun n => (n, h))
/-- `*p` for a `*baseNode`. -/
def base (p : Ptr) : NM F (BaseNode F) := fun h => (deref h.bases p).map (fun n => (n, h))
/-- `*p` for a `*NodeTrain`. -/
def train (p : Ptr) : NM F (NodeTrain F) := fun h => (deref h.trains p).map (fun n => (n, h))
/-- Assignment to fields of `*p`. -/
def setNode (p : Ptr) (n : Node) : NM F Unit := fun h => .ok ((), { h with nodes := h.nodes.set p n })
/-- Assignment to fields of `*p`. -/
def setBase (p : Ptr) (b : BaseNode F) : NM F Unit := fun h => .ok ((), { h with bases := h.bases.set p b })
/-- Assignment to fields of `*p`. -/
def setTrain (p : Ptr) (t : NodeTrain F) : NM F Unit := fun h => .ok ((), { h with trains := h.trains.set p t })

/-- `s[i]` for a `[]float64`. -/
def float (s : Slice) (i : Int) : NM F F := fun h => (readCell h.floats s i).map (fun v => (v, h))
/-- `s[i] = v` for a `[]float64`. -/
def setFloat (s : Slice) (i : Int) (v : F) : NM F Unit := fun h =>
  (writeCell h.floats s i v).map (fun fs => ((), { h with floats := fs }))
/-- `s[i]` for a `[]*NodeTrain`. -/
def trainPtr (s : Slice) (i : Int) : NM F Ptr := fun h => (readCell h.trainArrs s i).map (fun v => (v, h))
/-- `s[i] = p` for a `[]*NodeTrain`. -/
def setTrainPtr (s : Slice) (i : Int) (p : Ptr) : NM F Unit := fun h =>
  (writeCell h.trainArrs s i p).map (fun fs => ((), { h with trainArrs := fs }))
/-- `s[i]` for a `[]*Node`. -/
def nodePtr (s : Slice) (i : Int) : NM F Ptr := fun h => (readCell h.nodeArrs s i).map (fun v => (v, h))
/-- `s[i] = p` for a `[]*Node`. -/
def setNodePtr (s : Slice) (i : Int) (p : Ptr) : NM F Unit := fun h =>
  (writeCell h.nodeArrs s i p).map (fun fs => ((), { h with nodeArrs := fs }))
/-- The content of a `[]float64`. -/
def floatsOf (s : Slice) : NM F (List F) := fun h =>
  match readSlice h.floats s with
  | some l => .ok (l, h)
  | none => .error .nilDeref
/-- The content of a `[]*NodeTrain`. -/
def trainPtrsOf (s : Slice) : NM F (List Ptr) := fun h =>
  match readSlice h.trainArrs s with
  | some l => .ok (l, h)
  | none => .error .nilDeref

/-- `NewNodeTrain`, node/node.go:42-46. -/
def newNodeTrain (cowId : Int) : NM F Ptr :=
  allocTrain { cowId, lastDeltaforBPs := GoFloat.zero, lastActivations := GoFloat.zero, activeinputIds := false }

/-- `&baseNode{cowId: cowId}` -/
def emptyBase (cowId : Int) : BaseNode F :=
  { cowId, nodeType := 0, currentBatchsize := 0, idInLayer := 0, weights := nilSlice, mirrorWeights := nilSlice,
    adamAvgMom := nilSlice, adamAvgVel := nilSlice, t := nilSlice, bias := GoFloat.zero, tBias := GoFloat.zero,
    adamAvgMomBias := GoFloat.zero, adamAvgVelBias := GoFloat.zero, mirrorBias := GoFloat.zero }

/-- `NewEmptyNode`, node/node.go:48-54. -/
def newEmptyNode (cowId : Int) : NM F Ptr := do
  let b ← allocBase (emptyBase cowId)
  allocNode { cowId, base := b, train := nilSlice }

/-- `n` new `NodeTrain` objects, node/node.go:90-92. -/
def newNodeTrains (cowId : Int) : (n : Nat) → NM F (List Ptr)
  | 0 => pure []
  | n + 1 => do
    let p ← newNodeTrain cowId
    let ps ← newNodeTrains cowId n
    pure (p :: ps)

/-- `make([]float64, n)` -/
def makeFloats (n : Int) : NM F Slice :=
  if n < 0 then M.throw .makeLen else allocFloats (List.replicate n.toNat GoFloat.zero)

/-- node/node.go:83-87 and 219-223. -/
def adamFields (cfg : Config F) (adamTDim : Int) (adamAvgMom adamAvgVel : Slice) (b : BaseNode F) : NM F (BaseNode F) :=
  if cfg.UseAdam then do
    let t ← makeFloats adamTDim
    pure { b with adamAvgMom := adamAvgMom, adamAvgVel := adamAvgVel, t := t }
  else pure b

/-- `NewNode`, node/node.go:56-96. -/
def newNode (cfg : Config F) (cowId adamTDim nodeId : Int) (nodeType : NodeType) (batchsize : Int)
    (weights : Slice) (bias : F) (adamAvgMom adamAvgVel : Slice) : NM F Ptr := do
  let b : BaseNode F :=
    { emptyBase cowId with idInLayer := nodeId, nodeType := nodeType, currentBatchsize := batchsize,
                           weights := weights, bias := bias, mirrorBias := bias, mirrorWeights := weights }
  let b ← adamFields cfg adamTDim adamAvgMom adamAvgVel b
  if batchsize < 0 then M.throw .makeLen
  else do
    let ps ← newNodeTrains cowId batchsize.toNat
    let arr ← allocTrainArr ps
    let bp ← allocBase b
    allocNode { cowId, base := bp, train := arr }

/-- `(*Node).clone`, node/node.go:463-476. -/
def clone (p : Ptr) (cowId : Int) : NM F Ptr := do
  let n ← node p
  let ps ← trainPtrsOf n.train
  let arr ← allocTrainArr ps
  allocNode { cowId, base := n.base, train := arr }

/-- `(*Node).cloneIfNeeded`, node/node.go:456-461. -/
def cloneIfNeeded (p : Ptr) (cowId : Int) : NM F Ptr := do
  let n ← node p
  if n.cowId ≠ cowId then clone p cowId else pure p

/-- `(*baseNode).clone`, node/node.go:485-503: `copyFloat64Slice` (527-531) returns its argument, so the new
object has the same slices. -/
def cloneBase (p : Ptr) (cowId : Int) : NM F Ptr := do
  let b ← base p
  allocBase { b with cowId := cowId }

/-- `(*baseNode).cloneIfNeeded`, node/node.go:478-483. -/
def cloneBaseIfNeeded (p : Ptr) (cowId : Int) : NM F Ptr := do
  let b ← base p
  if b.cowId ≠ cowId then cloneBase p cowId else pure p

/-- `(*NodeTrain).clone`, node/node.go:512-519. -/
def cloneTrain (p : Ptr) (cowId : Int) : NM F Ptr := do
  let t ← train p
  allocTrain { t with cowId := cowId }

/-- `(*NodeTrain).cloneIfNeeded`, node/node.go:505-510. -/
def cloneTrainIfNeeded (p : Ptr) (cowId : Int) : NM F Ptr := do
  let t ← train p
  if t.cowId ≠ cowId then cloneTrain p cowId else pure p

/-- `n.base = n.base.cloneIfNeeded(cowId)`; returns the base. -/
def ownBase (p : Ptr) (cowId : Int) : NM F Ptr := do
  let n ← node p
  let b ← cloneBaseIfNeeded n.base cowId
  setNode p { n with base := b }
  pure b

/-- `train := n.train; train[inputId] = train[inputId].cloneIfNeeded(cowId)`; returns the pointer stored. -/
def ownTrain (p : Ptr) (cowId inputId : Int) : NM F Ptr := do
  let n ← node p
  let q ← trainPtr n.train inputId
  let q ← cloneTrainIfNeeded q cowId
  setTrainPtr n.train inputId q
  pure q

/-- The base of a node. -/
def baseOf (p : Ptr) : NM F (BaseNode F) := do base (← node p).base

/-- `nd.train[inputId]` -/
def trainOf (p : Ptr) (inputId : Int) : NM F (NodeTrain F) := do train (← trainPtr (← node p).train inputId)

/-- `Weights`, node/node.go:98-100. -/
def weights (p : Ptr) : NM F Slice := do return (← baseOf p).weights
/-- `Bias`, node/node.go:102-104, and `GetBias`, 165-167. -/
def getBias (p : Ptr) : NM F F := do return (← baseOf p).bias
/-- `AdamTDim`, node/node.go:106-108. -/
def adamTDim (p : Ptr) : NM F Int := do return (← baseOf p).t.len
/-- `GetT`, node/node.go:110-112. -/
def getT (p : Ptr) (i : Int) : NM F F := do float (← baseOf p).t i
/-- `SetT`, node/node.go:114-119. -/
def setT (p : Ptr) (cowId i : Int) (value : F) : NM F Ptr := do
  let n ← cloneIfNeeded p cowId
  let b ← base (← ownBase n cowId)
  setFloat b.t i value
  pure n
/-- `GetAdamAvgMom`, node/node.go:121-123. -/
def getAdamAvgMom (p : Ptr) (i : Int) : NM F F := do float (← baseOf p).adamAvgMom i
/-- `SetAdamAvgMom`, node/node.go:125-130. -/
def setAdamAvgMom (p : Ptr) (cowId i : Int) (value : F) : NM F Ptr := do
  let n ← cloneIfNeeded p cowId
  let b ← base (← ownBase n cowId)
  setFloat b.adamAvgMom i value
  pure n
/-- `GetAdamAvgVel`, node/node.go:132-134. -/
def getAdamAvgVel (p : Ptr) (i : Int) : NM F F := do float (← baseOf p).adamAvgVel i
/-- `SetAdamAvgVel`, node/node.go:136-141. -/
def setAdamAvgVel (p : Ptr) (cowId i : Int) (value : F) : NM F Ptr := do
  let n ← cloneIfNeeded p cowId
  let b ← base (← ownBase n cowId)
  setFloat b.adamAvgVel i value
  pure n
/-- `GetAdamAvgMomBias`, node/node.go:143-145. -/
def getAdamAvgMomBias (p : Ptr) : NM F F := do return (← baseOf p).adamAvgMomBias
/-- Assignment of scalar fields of the base: the common part of node/node.go:147-152, 158-163, 169-174,
180-185. -/
def setScalar (p : Ptr) (cowId : Int) (f : BaseNode F → BaseNode F) : NM F Ptr := do
  let n ← cloneIfNeeded p cowId
  let bp ← ownBase n cowId
  let b ← base bp
  setBase bp (f b)
  pure n
/-- `SetAdamAvgMomBias`, node/node.go:147-152. -/
def setAdamAvgMomBias (p : Ptr) (cowId : Int) (value : F) : NM F Ptr :=
  setScalar p cowId (fun b => { b with adamAvgMomBias := value })
/-- `GetAdamAvgVelBias`, node/node.go:154-156. -/
def getAdamAvgVelBias (p : Ptr) : NM F F := do return (← baseOf p).adamAvgVelBias
/-- `SetAdamAvgVelBias`, node/node.go:158-163. -/
def setAdamAvgVelBias (p : Ptr) (cowId : Int) (value : F) : NM F Ptr :=
  setScalar p cowId (fun b => { b with adamAvgVelBias := value })
/-- `SetBias`, node/node.go:169-174. -/
def setBias (p : Ptr) (cowId : Int) (value : F) : NM F Ptr :=
  setScalar p cowId (fun b => { b with bias := value })
/-- `GetTBias`, node/node.go:176-178. -/
def getTBias (p : Ptr) : NM F F := do return (← baseOf p).tBias
/-- `SetTBias`, node/node.go:180-185. -/
def setTBias (p : Ptr) (cowId : Int) (value : F) : NM F Ptr :=
  setScalar p cowId (fun b => { b with tBias := value })

/-- `copy(dst, src)` of `[]float64`. -/
def copyFloats (dst src : Slice) : NM F Unit := do
  let l ← floatsOf src
  (l.take (min dst.len src.len)).zipIdx.forM (fun (x : F × Nat) => setFloat dst x.2 x.1)

/-- `CopyWeightsAndBiasFromMirror`, node/node.go:187-193. -/
def copyWeightsAndBiasFromMirror (p : Ptr) (cowId : Int) : NM F Ptr := do
  let n ← cloneIfNeeded p cowId
  let bp ← ownBase n cowId
  let b ← base bp
  copyFloats b.weights b.mirrorWeights
  setBase bp { b with bias := b.mirrorBias }
  pure n

/-- `Update`, node/node.go:195-228. -/
def update (cfg : Config F) (p : Ptr) (cowId adamTDim nodeId : Int) (nodeType : NodeType) (batchsize : Int)
    (weights : Slice) (bias : F) (adamAvgMom adamAvgVel : Slice) (trainBlob : Slice) : NM F Ptr := do
  let n ← cloneIfNeeded p cowId
  let bp ← ownBase n cowId
  let b ← base bp
  let b := { b with idInLayer := nodeId, nodeType := nodeType, currentBatchsize := batchsize,
                    weights := weights, bias := bias, mirrorBias := bias, mirrorWeights := weights }
  let b ← adamFields cfg adamTDim adamAvgMom adamAvgVel b
  setBase bp b
  let nd ← node n
  setNode n { nd with train := trainBlob }
  pure n

/-- `GetLastActivation`, node/node.go:230-236. -/
def getLastActivation (p : Ptr) (inputId : Int) : NM F F := do
  let t ← trainOf p inputId
  if !t.activeinputIds then return GoFloat.zero else return t.lastActivations

/-- The panic of node/node.go:243, 306, 336, 386. -/
def notActive : Panic := .msg "Input Not Active but still called"

/-- `IncrementDelta`, node/node.go:238-253. -/
def incrementDelta (p : Ptr) (cowId inputId : Int) (incrementValue : F) : NM F Ptr := do
  let t ← trainOf p inputId
  if !t.activeinputIds then M.throw notActive
  else if GoFloat.le t.lastActivations GoFloat.zero then return p
  else do
    let n ← cloneIfNeeded p cowId
    let q ← ownTrain n cowId inputId
    let t ← train q
    setTrain q { t with lastDeltaforBPs := GoFloat.add t.lastDeltaforBPs incrementValue }
    pure n

/-- The loop node/node.go:276-281 (the sum is kept in `lastActivations` there; it reads only the weights). -/
def weightedSum (weights : Slice) (acc : F) : List (Pair F) → NM F F
  | [] => pure acc
  | pair :: rest => do
    let w ← float weights pair.Index
    weightedSum weights (GoFloat.add acc (GoFloat.mul w pair.Value)) rest

/-- node/node.go:270-274 without the assignment of the flag, see `getActivation`. -/
def ownBaseUnless (active : Bool) (n : Ptr) (cowId : Int) : NM F Unit :=
  if active then pure () else do
    let _ ← ownBase n cowId
    pure ()

/-- `GetActivation`, node/node.go:255-297. The code updates the training state step by step (271 sets the
flag, 276-283 accumulate the sum in it); here it is stored once at the end: nothing reads it in between. -/
def getActivation (p : Ptr) (cowId : Int) (data : List (Pair F)) (inputId : Int) : NM F (F × Ptr) := do
  let b ← baseOf p
  if inputId > b.currentBatchsize then M.throw (.msg "Input ID more than Batch Size")
  else do
    let n ← cloneIfNeeded p cowId
    let q ← ownTrain n cowId inputId
    let t ← train q
    ownBaseUnless t.activeinputIds n cowId
    let b ← baseOf n
    let sum ← weightedSum b.weights GoFloat.zero data
    let act := GoFloat.add sum b.bias
    if b.nodeType = ReLU then do
      if GoFloat.lt act GoFloat.zero then do
        setTrain q { t with
          activeinputIds := true
          lastActivations := GoFloat.zero
          lastDeltaforBPs := GoFloat.zero }
        pure (GoFloat.zero, n)
      else do
        setTrain q { t with
          activeinputIds := true
          lastActivations := act }
        pure (act, n)
    else if b.nodeType = Softmax then do
      setTrain q { t with
        activeinputIds := true
        lastActivations := act }
      pure (act, n)
    else M.throw (.msg "Invalid Node type from Constructor")

/-- `ComputeExtaStatsForSoftMax`, node/node.go:299-326. -/
def computeExtaStatsForSoftMax (p : Ptr) (cowId : Int) (normalizationConstant : F) (inputId : Int)
    (labels : List Int) : NM F Ptr := do
  let t ← trainOf p inputId
  if !t.activeinputIds then M.throw notActive
  else do
    let n ← cloneIfNeeded p cowId
    let q ← ownTrain n cowId inputId
    let t ← train q
    let b ← baseOf n
    let act := GoFloat.div t.lastActivations (GoFloat.add normalizationConstant (GoFloat.const (1 / 10000000)))
    let delta :=
      if intSliceContains labels b.idInLayer then
        GoFloat.sub (GoFloat.div GoFloat.one (GoFloat.ofInt labels.length)) (GoFloat.div act (GoFloat.ofInt b.currentBatchsize))
      else GoFloat.div (GoFloat.neg act) (GoFloat.ofInt b.currentBatchsize)
    setTrain q { t with lastActivations := act, lastDeltaforBPs := delta }
    pure n

/-- The end of (first-layer) back-propagation, node/node.go:364-374 and 404-414: bias gradient
(`biasStep` is the new `mirrorBias` without Adam), then reset. `q` is `train[inputId]`. -/
def finishBackProp (cfg : Config F) (n q : Ptr) (biasStep : (mirrorBias delta : F) → F) : NM F Unit := do
  let nd ← node n
  let b ← base nd.base
  let t ← train q
  setBase nd.base (if cfg.UseAdam then { b with tBias := GoFloat.add b.tBias t.lastDeltaforBPs }
    else { b with mirrorBias := biasStep b.mirrorBias t.lastDeltaforBPs })
  setTrain q { t with activeinputIds := false, lastDeltaforBPs := GoFloat.zero, lastActivations := GoFloat.zero }

/-- `s[i] += v` for a `[]float64`. -/
def addFloat (s : Slice) (i : Int) (v : F) : NM F Unit := do
  let x ← float s i
  setFloat s i (GoFloat.add x v)

/-- One iteration of the loop node/node.go:344-362. `train` is the slice `n.train` read before the loop. -/
def backPropStep (cfg : Config F) (cowId : Int) (previousNodes : Slice) (learningRate : F) (inputId : Int)
    (n : Ptr) (trainS : Slice) (pair : Pair F) : NM F Unit := do
  let nodeId := pair.Index
  let prev ← nodePtr previousNodes nodeId
  let t ← train (← trainPtr trainS inputId)
  let w ← float (← baseOf n).weights nodeId
  let prevNode ← incrementDelta prev cowId inputId (GoFloat.mul t.lastDeltaforBPs w)
  setNodePtr previousNodes nodeId prevNode
  let t ← train (← trainPtr trainS inputId)
  let gradT := GoFloat.mul t.lastDeltaforBPs (← getLastActivation prevNode inputId)
  let b ← baseOf n
  if cfg.UseAdam then addFloat b.t nodeId gradT
  else addFloat b.mirrorWeights nodeId (GoFloat.mul learningRate gradT)

/-- `BackPropagate`, node/node.go:328-377. `previousNodes` is the slice the argument points to. -/
def backPropagate (cfg : Config F) (p : Ptr) (cowId : Int) (previousNodes : Slice)
    (previousLayerActiveNodes : List (Pair F)) (learningRate : F) (inputId : Int) : NM F Ptr := do
  let t ← trainOf p inputId
  if !t.activeinputIds then M.throw notActive
  else do
    let n ← cloneIfNeeded p cowId
    let _ ← ownTrain n cowId inputId
    let trainS := (← node n).train
    let _ ← ownBase n cowId
    previousLayerActiveNodes.forM (backPropStep cfg cowId previousNodes learningRate inputId n trainS)
    let q ← trainPtr trainS inputId
    finishBackProp cfg n q (fun m d => GoFloat.add m (GoFloat.mul learningRate d))
    pure n

/-- One iteration of the loop node/node.go:394-402 (`q` is `train[inputId]`). -/
def firstLayerStep (cfg : Config F) (learningRate : F) (n q : Ptr) (pair : Pair F) : NM F Unit := do
  let t ← train q
  let gradT := GoFloat.mul t.lastDeltaforBPs pair.Value
  let b ← baseOf n
  if cfg.UseAdam then addFloat b.t pair.Index gradT
  else addFloat b.mirrorWeights pair.Index (GoFloat.mul learningRate gradT)

/-- `BackPropagateFirstLayer`, node/node.go:379-417 (409 adds `learningRate + delta`). -/
def backPropagateFirstLayer (cfg : Config F) (p : Ptr) (cowId : Int) (indexValuePairs : List (Pair F))
    (learningRate : F) (inputId : Int) : NM F Ptr := do
  let t ← trainOf p inputId
  if !t.activeinputIds then M.throw notActive
  else do
    let n ← cloneIfNeeded p cowId
    let q ← ownTrain n cowId inputId
    let _ ← ownBase n cowId
    indexValuePairs.forM (firstLayerStep cfg learningRate n q)
    finishBackProp cfg n q (fun m d => GoFloat.add m (GoFloat.add learningRate d))
    pure n

/-- `SetlastActivation`, node/node.go:419-431. -/
def setlastActivation (p : Ptr) (cowId inputId : Int) (realActivation : F) : NM F Ptr := do
  let n ← cloneIfNeeded p cowId
  let q ← ownTrain n cowId inputId
  let t ← train q
  setTrain q { t with lastActivations := realActivation }
  pure n

/-- `PurturbWeight`, node/node.go:434-446. -/
def purturbWeight (p : Ptr) (cowId weightId : Int) (delta : F) : NM F (F × Ptr) := do
  let n ← cloneIfNeeded p cowId
  let b ← base (← ownBase n cowId)
  addFloat b.weights weightId delta
  let w ← float b.weights weightId
  pure (w, n)

/-- `GetGradient`, node/node.go:448-454 (`-x * y` is `(-x) * y`). -/
def getGradient (p : Ptr) (inputId : Int) (inputVal : F) : NM F F := do
  let t ← trainOf p inputId
  return GoFloat.mul (GoFloat.neg t.lastDeltaforBPs) inputVal

end Goslide.Node

import Verif.Model.Layer
import Verif.Model.Xcrepo
/-
Model of network/network.go. Printing and timing are not modelled.
-/
namespace Goslide.Network
open Configuration Node Layer Xcrepo
variable {F : Type} [GoFloat F]

/-- `*p` for a `*Network`. -/
def network (p : Ptr) : WM F (Network F) := fun w => (deref w.networks p).map (fun x => (x, w))
/-- `&Network{..}` -/
def allocNetwork (x : Network F) : WM F Ptr := fun w => .ok (w.networks.length, { w with networks := w.networks ++ [x] })
/-- `make([]*layer.Layer, ..)` filled with `l`. -/
def allocLayerArr (l : List Ptr) : WM F Slice := fun w =>
  .ok ({ arr := w.layerArrs.length, off := 0, len := l.length }, { w with layerArrs := w.layerArrs ++ [l] })
/-- `s[i]` for a `[]*layer.Layer`. -/
def layerPtr (s : Slice) (i : Int) : WM F Ptr := fun w => (readCell w.layerArrs s i).map (fun v => (v, w))
/-- `s[i] = p` for a `[]*layer.Layer`. -/
def setLayerPtr (s : Slice) (i : Int) (p : Ptr) : WM F Unit := fun w =>
  (writeCell w.layerArrs s i p).map (fun ls => ((), { w with layerArrs := ls }))

/-- The loop network/network.go:49-90 (`n` = remaining iterations); the pointers stored in `hiddenLayers`. With
`LoadWeight` the arrays passed to `layer.New` are nil (network/network.go:50-70). -/
def newLayers (cfg : Config F) (cowId : Int) (sizesOfLayers layerTypes : List Int) (batchSize : Int)
    (k l rangePow : List Int) (sparsity : List F) : (n : Nat) → (i : Nat) → (previous : Int) → WM F (List Ptr)
  | 0, _, _ => pure []
  | n + 1, i, previous => do
    let size ← M.lift (goGet sizesOfLayers (i : Int))
    let ty ← M.lift (goGet layerTypes (i : Int))
    let k' ← M.lift (goGet k (i : Int))
    let l' ← M.lift (goGet l (i : Int))
    let rp ← M.lift (goGet rangePow (i : Int))
    let _ ← M.lift (goGet sparsity (i : Int))
    let p ← Layer.new cfg cowId size previous ty batchSize k' l' rp nilSlice nilSlice nilSlice nilSlice
    let ps ← newLayers cfg cowId sizesOfLayers layerTypes batchSize k l rangePow sparsity n (i + 1) size
    pure (p :: ps)

/-- `New`, network/network.go:33-99. -/
def new (cfg : Config F) (cowId numOfLayers : Int) (sizesOfLayers layerTypes : List Int) (batchSize : Int)
    (learningRate : F) (inputDim : Int) (k l rangePow : List Int) (sparsity : List F) : WM F Ptr := do
  checkLen numOfLayers
  let ps ← newLayers cfg cowId sizesOfLayers layerTypes batchSize k l rangePow sparsity numOfLayers.toNat 0 inputDim
  let hiddenLayers ← allocLayerArr ps
  allocNetwork { cowId, hiddenLayers, learningRate, numberOfLayers := numOfLayers, sparsity }

/-- `clone`, network/network.go:323-329. -/
def clone (p : Ptr) (cowId : Int) : WM F Ptr := do
  let x ← network p
  allocNetwork { x with cowId := cowId }

/-- `cloneIfNeeded`, network/network.go:316-321. -/
def cloneIfNeeded (p : Ptr) (cowId : Int) : WM F Ptr := do
  let x ← network p
  if x.cowId ≠ cowId then clone p cowId else pure p

/-- The forward loops network/network.go:119-129 and 190-202 (`n` = remaining layers, `j` = layer index, `off` is
added to the index into `sparsity`): the active lists of the layers. The sums `avgRetrieval` are only printed. -/
def forward (cfg : Config F) (fuel : Nat) (cowId : Int) (hidden : Slice) (sparsity : List F) (off : Int)
    (inputId : Int) (label : List Int) : (n : Nat) → (j : Nat) → (cur : List (Pair F)) → WM F (List (List (Pair F)))
  | 0, _, _ => pure []
  | n + 1, j, cur => do
    let la ← layerPtr hidden (j : Int)
    let sp ← M.lift (goGet sparsity (off + j))
    let (_, next, la') ← query cfg fuel la cowId cur inputId label sp
    setLayerPtr hidden (j : Int) la'
    let rest ← forward cfg fuel cowId hidden sparsity off inputId label n (j + 1) next
    pure (next :: rest)

/-- The loop network/network.go:134-140. State: `pairIndex == 0`, `maxAct`, `predictClass`. -/
def argMax (last : Ptr) (inputId : Int) : List (Pair F) → (first : Bool) → F → Int → WM F Int
  | [], _, _, predictClass => pure predictClass
  | pair :: rest, first, maxAct, predictClass => do
    let p ← getNodeById last pair.Index
    let act ← onHeap (getLastActivation p inputId)
    if GoFloat.lt maxAct act || first then argMax last inputId rest false act pair.Index
    else argMax last inputId rest false maxAct predictClass

/-- One iteration of the loop network/network.go:114-145: the predicted class. -/
def predictOne (cfg : Config F) (fuel : Nat) (cowId : Int) (n : Network F) (last : Ptr) (inputId : Int)
    (features : List (Pair F)) : WM F Int := do
  let acts ← forward cfg fuel cowId n.hiddenLayers n.sparsity n.numberOfLayers inputId [] n.hiddenLayers.len 0 features
  argMax last inputId ((features :: acts)[n.numberOfLayers.toNat]?.getD []) true GoFloat.zero 0

/-- The loop network/network.go:114-145 (`i` = position of the first of `examples`). -/
def predictLoop (cfg : Config F) (fuel : Nat) (cowId : Int) (n : Network F) (last : Ptr) :
    (examples : List (Example F)) → (i : Nat) → (correctPred : Int) → WM F Int
  | [], _, correctPred => pure correctPred
  | ex :: rest, i, correctPred => do
    let c ← predictOne cfg fuel cowId n last (i : Int) ex.Features
    predictLoop cfg fuel cowId n last rest (i + 1) (if intSliceContains ex.Labels c then correctPred + 1 else correctPred)

/-- `PredictClass`, network/network.go:101-151. -/
def predictClass (cfg : Config F) (fuel : Nat) (ne : Ptr) (cowId : Int) (examples : List (Example F)) : WM F (Int × Ptr) := do
  let p ← cloneIfNeeded ne cowId
  let n ← network p
  let last ← layerPtr n.hiddenLayers (n.numberOfLayers - 1)
  let correct ← predictLoop cfg fuel cowId n last examples 0 0
  pure (correct, p)

/-- `beta1`, `beta2`, `eps`, network/network.go:19-23, and the constants `1-beta1`, `1-beta2`. -/
def beta1 : F := GoFloat.const (9 / 10)
def beta2 : F := GoFloat.const (999 / 1000)
def eps : F := GoFloat.const (1 / 100000000)
def oneMinusBeta1 : F := GoFloat.const (1 / 10)
def oneMinusBeta2 : F := GoFloat.const (1 / 1000)

/-- `tmpLr`, network/network.go:177-183. -/
def stepSize (cfg : Config F) (learningRate : F) (iter : Int) : F :=
  if cfg.UseAdam then
    let e := GoFloat.add (GoFloat.ofInt iter) GoFloat.one
    GoFloat.div (GoFloat.mul learningRate (GoFloat.sqrt (GoFloat.sub GoFloat.one (GoFloat.pow beta2 e))))
      (GoFloat.sub GoFloat.one (GoFloat.pow beta1 e))
  else learningRate

/-- network/network.go:171-174 -/
def updateRandom (hidden : Slice) (numberOfLayers : Int) : WM F Unit :=
  ((List.range (numberOfLayers - 1).toNat).map (fun (i : Nat) => (i : Int) + 1)).forM (fun i => do
    let la ← layerPtr hidden i
    updateRandomNodes la)

/-- network/network.go:213-222; the node returned by the code is discarded. -/
def softmaxStep (cowId : Int) (la : Ptr) (isLast : Bool) (labels : List Int) (inputId : Int) (p : Ptr) : WM F Unit :=
  if isLast then do
    let c ← getNomalizationConstant la inputId
    let _ ← onHeap (computeExtaStatsForSoftMax p cowId c inputId labels)
    pure ()
  else pure ()

/-- network/network.go:223-242; the node returned by the code is discarded. -/
def backNode (cfg : Config F) (cowId : Int) (prev : Option Ptr) (features cur : List (Pair F)) (lr : F) (inputId : Int)
    (p : Ptr) : WM F Unit :=
  match prev with
  | some q => do
    let x ← layer q
    let _ ← onHeap (backPropagate cfg p cowId x.nodes cur lr inputId)
    pure ()
  | none => do
    let _ ← onHeap (backPropagateFirstLayer cfg p cowId features lr inputId)
    pure ()

/-- The loop network/network.go:211-243 over one active list; `isLast` says that this is the last layer, `prev` is
the previous layer if there is one. -/
def backLayer (cfg : Config F) (cowId : Int) (la : Ptr) (isLast : Bool) (prev : Option Ptr) (ex : Example F)
    (cur : List (Pair F)) (lr : F) (inputId : Int) : List (Pair F) → WM F Unit
  | [] => pure ()
  | pair :: rest => do
    let p ← getNodeById la pair.Index
    softmaxStep cowId la isLast ex.Labels inputId p
    backNode cfg cowId prev ex.Features cur lr inputId p
    backLayer cfg cowId la isLast prev ex cur lr inputId rest

/-- `hiddenLayers[layerIndex-1]`, read only for `layerIndex != 0`, network/network.go:223-226. (The code reads it in
every iteration of the inner loop; it does not change there.) -/
def prevLayer (hidden : Slice) (layerIndex : Nat) : WM F (Option Ptr) :=
  if layerIndex = 0 then pure none else do
    let q ← layerPtr hidden ((layerIndex : Int) - 1)
    pure (some q)

/-- The loop network/network.go:205-244: the layers `n-1, …, 0`; `acts` are the active lists, beginning with the
features. -/
def backward (cfg : Config F) (cowId : Int) (hidden : Slice) (numberOfLayers : Int) (ex : Example F) (lr : F) (inputId : Int)
    (acts : List (List (Pair F))) : (n : Nat) → WM F Unit
  | 0 => pure ()
  | n + 1 => do
    let la ← layerPtr hidden (n : Int)
    let cur ← M.lift (goGet acts (n : Int))
    let next ← M.lift (goGet acts ((n : Int) + 1))
    let prev ← prevLayer hidden n
    backLayer cfg cowId la (decide ((n : Int) = numberOfLayers - 1)) prev ex cur lr inputId next
    backward cfg cowId hidden numberOfLayers ex lr inputId acts n

/-- The loop network/network.go:186-245 (`i` = position of the first of `examples`). -/
def trainLoop (cfg : Config F) (fuel : Nat) (cowId : Int) (n : Network F) (lr : F) : (examples : List (Example F)) → (i : Nat) → WM F Unit
  | [], _ => pure ()
  | ex :: rest, i => do
    let acts ← forward cfg fuel cowId n.hiddenLayers n.sparsity 0 (i : Int) ex.Labels n.hiddenLayers.len 0 ex.Features
    backward cfg cowId n.hiddenLayers n.numberOfLayers ex lr (i : Int) (ex.Features :: acts) n.numberOfLayers.toNat
    trainLoop cfg fuel cowId n lr rest (i + 1)

/-- `ratio * tmpLr * mom / (math.Sqrt(vel) + eps)`, network/network.go:278 and 289, with `ratio = 1` (260). -/
def adamStep (lr mom vel : F) : F :=
  GoFloat.div (GoFloat.mul (GoFloat.mul GoFloat.one lr) mom) (GoFloat.add (GoFloat.sqrt vel) eps)

/-- `beta1*mom + (1-beta1)*t`, network/network.go:274 and 285. -/
def nextMom (mom t : F) : F := GoFloat.add (GoFloat.mul beta1 mom) (GoFloat.mul oneMinusBeta1 t)

/-- `beta2*vel + (1-beta2)*t*t`, network/network.go:275 and 287. -/
def nextVel (vel t : F) : F :=
  GoFloat.add (GoFloat.mul beta2 vel) (GoFloat.mul (GoFloat.mul oneMinusBeta2 t) t)

/-- One iteration of the loop network/network.go:269-282; the new `tmp`. -/
def adamCell (cowId : Int) (lr : F) (curWeights : Slice) (tmp : Ptr) (d : Int) : NM F Ptr := do
  let t ← getT tmp d
  let mom ← getAdamAvgMom tmp d
  let vel ← getAdamAvgVel tmp d
  addFloat curWeights d (adamStep lr (nextMom mom t) (nextVel vel t))
  let tmp ← setAdamAvgMom tmp cowId d (nextMom mom t)
  let tmp ← setAdamAvgVel tmp cowId d (nextVel vel t)
  setT tmp cowId d GoFloat.zero

/-- The loop network/network.go:269-282. -/
def adamCells (cowId : Int) (lr : F) (curWeights : Slice) : (ds : List Int) → (tmp : Ptr) → NM F Ptr
  | [], tmp => pure tmp
  | d :: ds, tmp => do
    let tmp ← adamCell cowId lr curWeights tmp d
    adamCells cowId lr curWeights ds tmp

/-- network/network.go:284-290 -/
def adamBias (cowId : Int) (lr : F) (tmp : Ptr) : NM F Ptr := do
  let m ← getAdamAvgMomBias tmp
  let t ← getTBias tmp
  let tmp ← setAdamAvgMomBias tmp cowId (nextMom m t)
  let v ← getAdamAvgVelBias tmp
  let t ← getTBias tmp
  let tmp ← setAdamAvgVelBias tmp cowId (nextVel v t)
  let b ← getBias tmp
  let m ← getAdamAvgMomBias tmp
  let v ← getAdamAvgVelBias tmp
  let tmp ← setBias tmp cowId (GoFloat.add b (adamStep lr m v))
  setTBias tmp cowId GoFloat.zero

/-- network/network.go:267-293 for the node `tmp` with weights `curWeights`. -/
def updateNode (cfg : Config F) (cowId : Int) (lr : F) (tmp : Ptr) (curWeights : Slice) : NM F Ptr :=
  if cfg.UseAdam then do
    let dim ← adamTDim tmp
    let tmp ← adamCells cowId lr curWeights ((List.range dim.toNat).map (fun (i : Nat) => (i : Int))) tmp
    adamBias cowId lr tmp
  else copyWeightsAndBiasFromMirror tmp cowId

/-- One iteration of the loop network/network.go:263-301. -/
def finishNode (cfg : Config F) (cowId : Int) (lr : F) (la : Ptr) (rehash : Bool) (m : Int) : WM F Unit := do
  let tmp ← getNodeById la m
  let curWeights ← onHeap (Node.weights tmp)
  let _ ← onHeap (updateNode cfg cowId lr tmp curWeights)
  if rehash then do
    let x ← layer la
    addToHashTable cfg x.hasher x.hashTables curWeights m
  else pure ()

/-- network/network.go:256-258 -/
def rebuildLayer (cfg : Config F) (cowId : Int) (hidden : Slice) (j : Int) (la : Ptr) (rebuild : Bool) : WM F Unit :=
  if rebuild then do
    let la' ← updateTable cfg la cowId
    setLayerPtr hidden j la'
  else pure ()

/-- One iteration of the loop network/network.go:247-303. -/
def finishLayer (cfg : Config F) (cowId : Int) (n : Network F) (lr : F) (rehash rebuild : Bool) (j : Int) : WM F Unit := do
  let la ← layerPtr n.hiddenLayers j
  let sp ← M.lift (goGet n.sparsity j)
  let sparse := GoFloat.lt sp GoFloat.one
  if rehash && sparse then clearHashTables la else pure ()
  rebuildLayer cfg cowId n.hiddenLayers j la (rebuild && sparse)
  let x ← layer la
  ((List.range x.nodes.len).map (fun (i : Nat) => (i : Int))).forM (finishNode cfg cowId lr la (rehash && sparse))

/-- `ProcessInput`, network/network.go:153-314. The returned loss is the constant 0. -/
def processInput (cfg : Config F) (fuel : Nat) (ne : Ptr) (cowId : Int) (examples : List (Example F)) (iter : Int)
    (rehash rebuild : Bool) : WM F (F × Ptr) := do
  let p ← cloneIfNeeded ne cowId
  let n ← network p
  if iter.tmod 6946 = 6945 then updateRandom n.hiddenLayers n.numberOfLayers else pure ()
  let lr := stepSize cfg n.learningRate iter
  trainLoop cfg fuel cowId n lr examples 0
  ((List.range n.hiddenLayers.len).map (fun (i : Nat) => (i : Int))).forM (finishLayer cfg cowId n lr rehash rebuild)
  pure (GoFloat.zero, p)

end Goslide.Network

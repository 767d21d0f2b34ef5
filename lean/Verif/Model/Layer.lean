import Verif.Model.Node
import Verif.Model.Lsh
import Verif.Model.Wta
import Verif.Model.Dwta
import Verif.Model.Minhash
import Verif.Model.Srp
/-
Model of layer/layer.go.

Layers, hash tables, the arrays of random nodes and the networks (network/network.go) are objects in a
memory `World` around the memory of package node. The hashers are never changed after their creation, so a
layer holds their value. Printing and timing are not modelled.
-/
namespace Goslide.Layer
open Configuration Node Lsh
variable {F : Type} [GoFloat F]

/-- The four hasher fields of a layer, layer/layer.go:41-45; at most the one selected by the (constant) global
configuration is not nil. `dwta` also has `binIds`, which is never read. -/
inductive Hasher where
  | wta (h : Wta.WtaHash)
  | dwta (h : Dwta.DensifiedWtaHash)
  | minhash (h : Minhash.DensifiedMinhash) (binIds : List Int)
  | srp (h : Srp.SparseRandomProjection)

/-- layer/layer.go:31-46 -/
structure Layer where
  cowId : Int
  nodeType : NodeType
  nodes : Slice
  randNode : Slice
  normalizationConstants : Slice
  k : Int
  l : Int
  previousLayerNumOfNodes : Int
  hashTables : Ptr
  hasher : Hasher

/-- network/network.go:25-31. `sparsity` is never changed: its value. -/
structure Network (F : Type) where
  cowId : Int
  hiddenLayers : Slice
  learningRate : F
  numberOfLayers : Int
  sparsity : List F

/-- The memory, and what the outside world will deliver: draws of `math/rand`, normally distributed draws,
map iteration orders (each a shuffle driven by `mapRng`), hash functions of freshly seeded `maphash.Hash`es.
`consts` holds the arrays of the slices `normalizationConstants`: they come from their own `make`
(layer/layer.go:218) and are never stored anywhere else, so they share no cell with the vectors of the nodes. -/
structure World (F : Type) where
  heap : Heap F
  ints : List (List Int)
  lshs : List LSH
  consts : List (List F)
  layers : List Layer
  layerArrs : List (List Ptr)
  networks : List (Network F)
  rng : Rng
  norms : Nat → F
  mapRng : Rng
  hashes : Nat → Nat → BitVec 64

/-- Computations on this memory. -/
abbrev WM (F : Type) := M (World F)

/-- A computation of package node. -/
def onHeap (m : NM F α) : WM F α := fun w =>
  match m w.heap with
  | .ok (a, h) => .ok (a, { w with heap := h })
  | .error e => .error e

/-- A computation that uses `math/rand`. -/
def draw (f : Rng → Go (α × Rng)) : WM F α := fun w =>
  match f w.rng with
  | .ok (a, r) => .ok (a, { w with rng := r })
  | .error e => .error e

/-- `rand.NormFloat64()*normalDistributionStdDev + normalDistributionMean`, layer/layer.go:146-147, 152-153,
`n` times. -/
def drawNormals (n : Nat) : WM F (List F) := fun w =>
  .ok ((List.range n).map (fun i => GoFloat.add (GoFloat.mul (w.norms i) (GoFloat.const (1 / 100))) GoFloat.zero),
    { w with norms := fun i => w.norms (i + n) })

/-- `*p` for a `*Layer`. -/
def layer (p : Ptr) : WM F Layer := fun w => (deref w.layers p).map (fun x => (x, w))
/-- `&Layer{..}` -/
def allocLayer (x : Layer) : WM F Ptr := fun w => .ok (w.layers.length, { w with layers := w.layers ++ [x] })
/-- Assignment to fields of `*p`. -/
def setLayer (p : Ptr) (x : Layer) : WM F Unit := fun w => .ok ((), { w with layers := w.layers.set p x })
/-- `*p` for a `*lsh.LSH`. -/
def tables (p : Ptr) : WM F LSH := fun w => (deref w.lshs p).map (fun x => (x, w))
/-- `&lsh.LSH{..}` -/
def allocTables (x : LSH) : WM F Ptr := fun w => .ok (w.lshs.length, { w with lshs := w.lshs ++ [x] })
/-- Change `*p`. -/
def setTables (p : Ptr) (x : LSH) : WM F Unit := fun w => .ok ((), { w with lshs := w.lshs.set p x })
/-- `make([]int, ..)` filled with `l`. -/
def allocInts (l : List Int) : WM F Slice := fun w =>
  .ok ({ arr := w.ints.length, off := 0, len := l.length }, { w with ints := w.ints ++ [l] })
/-- The content of a `[]int`. -/
def intsOf (s : Slice) : WM F (List Int) := fun w =>
  match readSlice w.ints s with
  | some l => .ok (l, w)
  | none => .error .nilDeref
/-- Overwrite the content of a `[]int` that is a whole array. -/
def setInts (s : Slice) (l : List Int) : WM F Unit := fun w => .ok ((), { w with ints := w.ints.set s.arr l })

/-- `make([]float64, n)` for the normalization constants, layer/layer.go:218. -/
def allocConsts (n : Int) : WM F Slice := fun w =>
  if n < 0 then .error .makeLen
  else .ok ({ arr := w.consts.length, off := 0, len := n.toNat },
    { w with consts := w.consts ++ [List.replicate n.toNat GoFloat.zero] })
/-- `s[i]` for the normalization constants. -/
def constAt (s : Slice) (i : Int) : WM F F := fun w => (readCell w.consts s i).map (fun v => (v, w))
/-- `s[i] = v` for the normalization constants. -/
def setConst (s : Slice) (i : Int) (v : F) : WM F Unit := fun w =>
  (writeCell w.consts s i v).map (fun cs => ((), { w with consts := cs }))

/-- configuration/configuration.go:45-50 -/
def hashFunctionOf (n : Int) : HashFunction :=
  if n = 1 then .wta else if n = 2 then .densifiedWta else if n = 3 then .densifiedMinhash
  else if n = 4 then .sparseRandomProjection else .other n

/-- `topK`, layer/layer.go:25 -/
def topK : Nat := 30
/-- `srpRatio`, layer/layer.go:24 -/
def srpRatio : Nat := 32
/-- `threshold`, layer/layer.go:28 -/
def threshold : Int := 2
/-- `mapLen`, layer/layer.go:29 -/
def mapLen : Nat := 325056

/-- The panic of layer/layer.go:124, 246, 321, 436, 577, 613. -/
def badHashFunction : Panic := .msg "Unexpected hash function"

/-- A new hasher, layer/layer.go:106-126 and 228-248. -/
def newHasher (cfg : Config F) (kl dim : Nat) : WM F Hasher :=
  match hashFunctionOf cfg.HashFunction with
  | .wta => draw (fun r => let (h, r) := Wta.new kl dim r; .ok (.wta h, r))
  | .densifiedWta => draw (fun r => let (h, r) := Dwta.new kl dim r; .ok (.dwta h, r))
  | .densifiedMinhash => fun w =>
    let (h, r) := Minhash.new kl dim (w.hashes 0) w.rng
    .ok (.minhash h (Minhash.getMap F h dim), { w with rng := r, hashes := fun i => w.hashes (i + 1) })
  | .sparseRandomProjection => draw (fun r => do
      let (h, r) ← Srp.new F dim kl srpRatio r
      return (.srp h, r))
  | .other _ => M.throw badHashFunction

/-- The hash codes of a weight vector, layer/layer.go:563-579 and 599-615. `spare` are the cells of the array
behind the slice (see `Minhash.firstK`). -/
def hashDense (cfg : Config F) (hasher : Hasher) (weights spare : List F) : Go (List Int) :=
  match hashFunctionOf cfg.HashFunction, hasher with
  | .wta, .wta h => Wta.getHashDense h weights
  | .densifiedWta, .dwta h => Dwta.getHashEasy h weights
  | .densifiedMinhash, .minhash h binIds => Minhash.getHashEasyDense h binIds weights spare topK
  | .sparseRandomProjection, .srp h => Srp.getHash h weights
  | .other _, _ => .error badHashFunction
  | _, _ => .error .nilDeref

/-- The hash codes of an active list, layer/layer.go:306-323 and 421-438. The lists of the code are always
made with their exact length (layer/layer.go:296, 355, 361, 384, 501; dataset/xcrepo/xcrepo.go:146): they
have no spare capacity. -/
def hashSparse (cfg : Config F) (hasher : Hasher) (pairs : List (Pair F)) : Go (List Int) :=
  match hashFunctionOf cfg.HashFunction, hasher with
  | .wta, .wta h => Wta.getHash h pairs
  | .densifiedWta, .dwta h => Dwta.getHash h pairs
  | .densifiedMinhash, .minhash h binIds => Minhash.getHashEasy h binIds pairs [] topK
  | .sparseRandomProjection, .srp h => .ok (Srp.getHashSparse h pairs)
  | .other _, _ => .error badHashFunction
  | _, _ => .error .nilDeref

/-- What lies in the array behind a slice of float64. -/
def spareOf (s : Slice) : NM F (List F) := fun h =>
  .ok (((h.floats[s.arr]?).getD []).drop (s.off + s.len), h)

/-- `addToHashTable`, layer/layer.go:590-619, and the same steps in network/network.go:297-299. -/
def addToHashTable (cfg : Config F) (hasher : Hasher) (t : Ptr) (weights : Slice) (id : Int) : WM F Unit := do
  let ws ← onHeap (floatsOf weights)
  let spare ← onHeap (spareOf weights)
  let hashes ← M.lift (hashDense cfg hasher ws spare)
  let s ← tables t
  let indices ← M.lift (hashesToIndex (hashFunctionOf cfg.HashFunction) s hashes)
  let (_, s) ← M.lift (Lsh.add s indices id)
  setTables t s

/-- `s[i:j]` for a slice without spare capacity (all slices that are sliced here are whole arrays). -/
def subSlice (s : Slice) (i j : Int) : Go Slice :=
  if 0 ≤ i ∧ i ≤ j ∧ j ≤ s.len then .ok { arr := s.arr, off := s.off + i.toNat, len := (j - i).toNat }
  else .error .slice

/-- `make([]int, n)`, `make([]float64, n)` etc. panic for a negative length. -/
def checkLen (n : Int) : WM F Unit := if n < 0 then M.throw .makeLen else pure ()

/-- The arrays of weights, biases and moments of a new layer, layer/layer.go:135-161 (nil without Adam). -/
def newArrays (cfg : Config F) (numOfNodes previous : Int) (weights bias adamAvgMom adamAvgVel : Slice) :
    WM F (Slice × Slice × Slice × Slice) :=
  if cfg.LoadWeight then
    if cfg.UseAdam then pure (weights, bias, adamAvgMom, adamAvgVel) else pure (weights, bias, nilSlice, nilSlice)
  else do
    checkLen (numOfNodes * previous)
    let ws ← drawNormals (numOfNodes * previous).toNat
    let curWeights ← onHeap (allocFloats ws)
    let bs ← drawNormals numOfNodes.toNat
    let curBias ← onHeap (allocFloats bs)
    if cfg.UseAdam then do
      let curAdamAvgMom ← onHeap (makeFloats (numOfNodes * previous))
      let curAdamAvgVel ← onHeap (makeFloats (numOfNodes * previous))
      pure (curWeights, curBias, curAdamAvgMom, curAdamAvgVel)
    else pure (curWeights, curBias, nilSlice, nilSlice)

/-- layer/layer.go:185-188 -/
def adamSlices (cfg : Config F) (mom vel : Slice) (first last : Int) : WM F (Slice × Slice) :=
  if cfg.UseAdam then do
    let m ← M.lift (subSlice mom first last)
    let v ← M.lift (subSlice vel first last)
    pure (m, v)
  else pure (nilSlice, nilSlice)

/-- `n` new empty nodes, layer/layer.go:172-175. -/
def newEmptyNodes (cowId : Int) : (n : Nat) → NM F (List Ptr)
  | 0 => pure []
  | n + 1 => do
    let p ← newEmptyNode cowId
    let ps ← newEmptyNodes cowId n
    pure (p :: ps)

/-- One iteration of the loop layer/layer.go:178-209. -/
def initNode (cfg : Config F) (cowId previous : Int) (nodeType : NodeType) (batchSize : Int) (hasher : Hasher) (t : Ptr)
    (arrays : Slice × Slice × Slice × Slice) (trainArray nodes : Slice) (i : Int) : WM F Unit := do
  let (curWeights, curBias, mom, vel) := arrays
  let firstIndex := previous * i
  let lastIndex := firstIndex + previous
  let (m, v) ← adamSlices cfg mom vel firstIndex lastIndex
  let p ← onHeap (nodePtr nodes i)
  let w ← M.lift (subSlice curWeights firstIndex lastIndex)
  let b ← onHeap (float curBias i)
  let tr ← M.lift (subSlice trainArray (batchSize * i) (batchSize * i + batchSize))
  let n ← onHeap (update cfg p cowId previous i nodeType batchSize w b m v tr)
  onHeap (setNodePtr nodes i n)
  let ws ← onHeap (Node.weights n)
  addToHashTable cfg hasher t ws i

/-- layer/layer.go:217-219 -/
def newConsts (nodeType : NodeType) (batchSize : Int) : WM F Slice :=
  if nodeType = Softmax then allocConsts batchSize else pure nilSlice

/-- `New`, layer/layer.go:61-222. `layerId` and `sparsity` are never used. A negative `k`, `l` or `rangePow`
is taken to panic here: so does the code (`make`, shift), except for `l = 0` with a negative `k` or `rangePow`,
which gives the same layer as with 0. -/
def new (cfg : Config F) (cowId numOfNodes previous : Int) (nodeType : NodeType) (batchSize k l rangePow : Int)
    (weights bias adamAvgMom adamAvgVel : Slice) : WM F Ptr := do
  checkLen numOfNodes
  let order ← draw (fun r => .ok (shuffle ((List.range numOfNodes.toNat).map (fun (i : Nat) => (i : Int))) r))
  let randNode ← allocInts order
  checkLen k
  checkLen l
  checkLen rangePow
  checkLen previous
  let s ← draw (Lsh.new k.toNat l.toNat rangePow.toNat)
  let t ← allocTables s
  let hasher ← newHasher cfg (k * l).toNat previous.toNat
  let arrays ← newArrays cfg numOfNodes previous weights bias adamAvgMom adamAvgVel
  checkLen (numOfNodes * batchSize)
  let trains ← onHeap (newNodeTrains cowId (numOfNodes * batchSize).toNat)
  let trainArray ← onHeap (allocTrainArr trains)
  let ps ← onHeap (newEmptyNodes cowId numOfNodes.toNat)
  let nodes ← onHeap (allocNodeArr ps)
  ((List.range numOfNodes.toNat).map (fun (i : Nat) => (i : Int))).forM
    (initNode cfg cowId previous nodeType batchSize hasher t arrays trainArray nodes)
  let norm ← newConsts nodeType batchSize
  allocLayer { cowId, nodeType, nodes, randNode, normalizationConstants := norm, k, l, previousLayerNumOfNodes := previous, hashTables := t, hasher }

/-- `clone`, layer/layer.go:639-645. -/
def clone (p : Ptr) (cowId : Int) : WM F Ptr := do
  let x ← layer p
  allocLayer { x with cowId := cowId }

/-- `cloneIfNeeded`, layer/layer.go:632-637. -/
def cloneIfNeeded (p : Ptr) (cowId : Int) : WM F Ptr := do
  let x ← layer p
  if x.cowId ≠ cowId then clone p cowId else pure p

/-- `UpdateTable`, layer/layer.go:225-251. -/
def updateTable (cfg : Config F) (p : Ptr) (cowId : Int) : WM F Ptr := do
  let l ← cloneIfNeeded p cowId
  let x ← layer l
  let hasher ← newHasher cfg (x.k * x.l).toNat x.previousLayerNumOfNodes.toNat
  setLayer l { x with hasher := hasher }
  pure l

/-- `rand.Shuffle(n, swap)` of layer/layer.go:254-257 on the list `order`; a swap beyond its end panics. -/
def shuffleNodes (n : Nat) (order : List Int) (r : Rng) : Go (List Int × Rng) :=
  if n ≤ order.length then .ok (shuffleFrom order (n - 1) r)
  else .error .index

/-- `UpdateRandomNodes`, layer/layer.go:253-258. The array `randNode` has as many elements as there are nodes. -/
def updateRandomNodes (p : Ptr) : WM F Unit := do
  let x ← layer p
  let order ← intsOf x.randNode
  let order ← draw (shuffleNodes x.nodes.len order)
  setInts x.randNode order

/-! ### Selection of the active nodes -/

/-- `counts[x] += 1` for a `map[int]int` (an association list). -/
def mapIncr (x : Int) : List (Int × Int) → List (Int × Int)
  | [] => [(x, 1)]
  | (y, c) :: m => if y = x then (y, c + 1) :: m else (y, c) :: mapIncr x m

/-- `counts[x] = v`. -/
def mapPut (x v : Int) : List (Int × Int) → List (Int × Int)
  | [] => [(x, v)]
  | (y, c) :: m => if y = x then (y, v) :: m else (y, c) :: mapPut x v m

/-- The ids retrieved from the hash tables, layer/layer.go:325-326 and 440-441. -/
def candidates (cfg : Config F) (hasher : Hasher) (s : LSH) (pairs : List (Pair F)) : Go (List (List Int)) := do
  let hashes ← hashSparse cfg hasher pairs
  let indices ← hashesToIndex (hashFunctionOf cfg.HashFunction) s hashes
  retrieveRaw s indices

/-- The map `counts` of mode 1, layer/layer.go:332-344. -/
def mode1Counts (softmax : Bool) (l : Int) (label : List Int) (actives : List (List Int)) : List (Int × Int) :=
  let counts := if softmax ∧ 0 < label.length then label.foldl (fun m y => mapPut y l m) [] else []
  actives.foldl (fun m ids => ids.foldl (fun m id => mapIncr id m) m) counts

/-- Mode 1, layer/layer.go:332-352 (`order` drives the map iteration order). -/
def mode1 (softmax : Bool) (l : Int) (label : List Int) (actives : List (List Int)) (order : Rng) : List Int × Rng :=
  let (items, r) := shuffle (mode1Counts softmax l label actives) order
  ((items.filter (fun (x : Int × Int) => x.2 > threshold)).map (·.1), r)

/-- The labels of mode 2, layer/layer.go:366-369. State: active list and bitset. -/
def mode2Labels : (label : List Int) → (i : Nat) → List Int × List Bool → Go (List Int × List Bool)
  | [], _, st => .ok st
  | y :: rest, i, (act, bs) => do
    let act ← goSet act (i : Int) y
    let bs ← goSet bs y true
    mode2Labels rest (i + 1) (act, bs)

/-- The sampling loop of mode 2, layer/layer.go:372-379. The loop of the code need not end; `fuel` bounds the
number of draws and every theorem holds for every `fuel`. -/
def mode2Loop (n : Nat) : (fuel : Nat) → (tmpSize : Nat) → List Int × List Bool → Rng → Go (List Int × Rng)
  | fuel, tmpSize, (act, bs), r =>
    if tmpSize < act.length then
      match fuel with
      | 0 => .error .outOfFuel
      | fuel + 1 => do
        let (v, r) ← randIntn r n
        if ← goGet bs (v : Int) then mode2Loop n fuel tmpSize (act, bs) r
        else do
          let act ← goSet act (tmpSize : Int) (v : Int)
          let bs ← goSet bs (v : Int) true
          mode2Loop n fuel (tmpSize + 1) (act, bs) r
    else .ok (act, r)

/-- Mode 2, layer/layer.go:360-379 (softmax layers). -/
def mode2 (fuel n : Nat) (sparsity : F) (label : List Int) (r : Rng) : Go (List Int × Rng) :=
  let length := GoFloat.floorInt (GoFloat.mul (GoFloat.ofInt (n : Int)) sparsity)
  if length < 0 then .error .makeLen
  else do
    let st ← mode2Labels label 0 (List.replicate length.toNat 0, List.replicate mapLen false)
    mode2Loop n fuel label.length st r

/-- `Less`, layer/layer.go:54-59. -/
def pairLess (a b : Pair F) : Bool :=
  if GoFloat.eq a.Value b.Value then a.Index < b.Index else GoFloat.lt a.Value b.Value

/-- Insertion into a sorted list. -/
def insertPair (x : Pair F) : List (Pair F) → List (Pair F)
  | [] => [x]
  | y :: l => if pairLess y x then y :: insertPair x l else x :: y :: l

/-- `sort.Sort(indexValuePairByValue(..))`, layer/layer.go:407. The indices are distinct, so without NaN the
sorted list is unique; with NaN the order of the code may be a different one. -/
def sortPairs (l : List (Pair F)) : List (Pair F) := l.foldr insertPair []

/-- `innerproduct`, layer/layer.go:621-630. -/
def innerproduct (weights : List F) : List (Pair F) → F → Go F
  | [], total => .ok total
  | p :: rest, total => do
    let w ← goGet weights p.Index
    innerproduct weights rest (GoFloat.add total (GoFloat.mul p.Value w))

/-- The list `sortW` of mode 3, layer/layer.go:388-405. -/
def mode3Scores (label : List Int) (cur : List (Pair F)) : (s : Nat) → List (List F × F) → Go (List (Pair F))
  | _, [] => .ok []
  | s, (weights, bias) :: rest => do
    let tmp ← innerproduct weights cur GoFloat.zero
    let tmp := GoFloat.add tmp bias
    let rest ← mode3Scores label cur (s + 1) rest
    return { Index := s, Value := if intSliceContains label s then GoFloat.const (-1000000000) else GoFloat.neg tmp } :: rest

/-- The loop layer/layer.go:409-414. State: active list and `in`. -/
def mode3Copy (label : List Int) : (sortW : List (Pair F)) → (i : Nat) → List Int × Int → Go (List Int × Int)
  | [], _, st => .ok st
  | sw :: rest, i, (act, found) => do
    let act ← goSet act (i : Int) sw.Index
    mode3Copy label rest (i + 1) (act, if intSliceContains label sw.Index then 1 else found)

/-- Mode 3, layer/layer.go:383-414 (softmax layers). `ws` are weights and bias of the nodes. -/
def mode3 (sparsity : F) (label : List Int) (cur : List (Pair F)) (ws : List (List F × F)) : Go (List Int × Int) :=
  let length := GoFloat.floorInt (GoFloat.mul (GoFloat.ofInt (ws.length : Int)) sparsity)
  if length < 0 then .error .makeLen
  else do
    let sortW ← mode3Scores label cur 0 ws
    mode3Copy label (sortPairs sortW) 0 (List.replicate length.toNat 0, 0)

/-- The labels of mode 4, layer/layer.go:455-457. -/
def mode4Labels (l : Int) (label counts : List Int) : Go (List Int) :=
  label.foldlM (fun counts y => goSet counts y l) counts

/-- One retrieved id of mode 4, layer/layer.go:463-468. State: `counts`, `countsSize`. -/
def mode4Count (st : List Int × Int) (id : Int) : Go (List Int × Int) := do
  let c ← goGet st.1 id
  if c = -1 then do
    let counts ← goSet st.1 id 1
    return (counts, st.2 + 1)
  else do
    let counts ← goSet st.1 id (c + 1)
    return (counts, st.2)

/-- The padding loops of mode 4, layer/layer.go:476-485 and 488-496, over (a part of) `randNode`. -/
def mode4Pad : (order : List Int) → List Int × Int → Go (List Int × Int)
  | [], st => .ok st
  | c :: rest, (counts, size) =>
    if size ≥ 1000 then .ok (counts, size)
    else do
      let v ← goGet counts c
      if v = -1 then do
        let counts ← goSet counts c 0
        mode4Pad rest (counts, size + 1)
      else mode4Pad rest (counts, size)

/-- The list of random nodes from `start`, layer/layer.go:476-480: the loop runs to the number of nodes `n`
and panics if `randNode` is shorter (it never is). -/
def orderFrom (randNode : List Int) (start n : Nat) : Go (List Int) :=
  if n ≤ randNode.length then .ok ((randNode.take n).drop start) else .error .index

/-- The padding, layer/layer.go:474-498. -/
def mode4Padding (n : Nat) (randNode : List Int) (st : List Int × Int) (r : Rng) : Go ((List Int × Int) × Rng) :=
  if st.2 < 1500 then do
    let (start, r) ← randIntn r n
    let order ← orderFrom randNode start n
    let st ← mode4Pad order st
    if st.2 < 1000 then do
      let st ← mode4Pad randNode st
      return (st, r)
    else return (st, r)
  else return (st, r)

/-- The final copy of mode 4, layer/layer.go:500-511: the positions of `counts` that are not negative, written
one after the other into a list of `countsSize` zeros. -/
def mode4Collect (counts : List Int) (size : Int) : Go (List Int) :=
  if size < 0 then .error .makeLen
  else
    let ids := (counts.zipIdx.filter (fun (x : Int × Nat) => x.1 ≥ 0)).map (fun x => (x.2 : Int))
    if ids.length ≤ size.toNat then .ok (ids ++ List.replicate (size.toNat - ids.length) 0)
    else .error .index

/-- `counts` with the labels, layer/layer.go:448-457. -/
def mode4Start (withLabels : Bool) (l : Int) (n : Nat) (label : List Int) : Go (List Int) :=
  if withLabels then mode4Labels l label (List.replicate n (-1)) else .ok (List.replicate n (-1))

/-- Mode 4, layer/layer.go:447-511. Result: the active list, `in`. -/
def mode4 (softmax : Bool) (l : Int) (n : Nat) (randNode label : List Int) (actives : List (List Int)) (r : Rng) :
    Go ((List Int × Int) × Rng) := do
  let withLabels : Bool := softmax ∧ 0 < label.length
  let counts ← mode4Start withLabels l n label
  let size : Int := if withLabels then label.length else 0
  let st ← actives.flatten.foldlM mode4Count (counts, size)
  let (st', r) ← mode4Padding n randNode st r
  let act ← mode4Collect st'.1 st'.2
  return ((act, st.2), r)

/-- The weights and biases of the nodes in an array, layer/layer.go:388-391. -/
def nodeScores : List Ptr → NM F (List (List F × F))
  | [] => pure []
  | p :: ps => do
    let s ← Node.weights p
    let w ← floatsOf s
    let b ← getBias p
    let rest ← nodeScores ps
    pure ((w, b) :: rest)

/-- The content of a `[]*Node`. -/
def nodePtrsOf (s : Slice) : NM F (List Ptr) := fun h =>
  match readSlice h.nodeArrs s with
  | some l => .ok (l, h)
  | none => .error .nilDeref

/-- The selection of the active nodes, layer/layer.go:293-513: `in` and the new active list (`none` if none is
assigned, i.e. the list stays nil: unknown modes, and modes 2 and 3 on ReLU layers). -/
def select (cfg : Config F) (fuel : Nat) (x : Layer) (cur : List (Pair F)) (label : List Int) (sparsity : F) :
    WM F (Int × Option (List Int)) :=
  let softmax : Bool := x.nodeType = Softmax
  if GoFloat.eq sparsity GoFloat.one then pure (0, some ((List.range x.nodes.len).map (fun (i : Nat) => (i : Int))))
  else if cfg.LayerMode = 1 then do
    let s ← tables x.hashTables
    let actives ← M.lift (candidates cfg x.hasher s cur)
    let act ← (fun w => let (a, r) := mode1 softmax x.l label actives w.mapRng; .ok (a, { w with mapRng := r }))
    pure (act.length, some act)
  else if cfg.LayerMode = 2 then
    if softmax then do
      let act ← draw (mode2 fuel x.nodes.len sparsity label)
      pure (0, some act)
    else pure (0, none)
  else if cfg.LayerMode = 3 then
    if softmax then do
      let ps ← onHeap (nodePtrsOf x.nodes)
      let ws ← onHeap (nodeScores ps)
      let (act, found) ← M.lift (mode3 sparsity label cur ws)
      pure (found, some act)
    else pure (0, none)
  else if cfg.LayerMode = 4 then do
    let s ← tables x.hashTables
    let actives ← M.lift (candidates cfg x.hasher s cur)
    let order ← intsOf x.randNode
    let (act, size) ← draw (mode4 softmax x.l x.nodes.len order label actives)
    pure (size, some act)
  else pure (0, none)

/-! ### Activations -/

/-- The loop layer/layer.go:527-537: activations of the active nodes and the maximum `maxValue`. -/
def activate (cowId : Int) (softmax : Bool) (nodes : Slice) (cur : List (Pair F)) (inputId : Int) :
    (ids : List Int) → (maxValue : F) → NM F (List (Pair F) × F)
  | [], maxValue => pure ([], maxValue)
  | id :: rest, maxValue => do
    let p ← nodePtr nodes id
    let (value, p) ← getActivation p cowId cur inputId
    setNodePtr nodes id p
    let (pairs, m) ← activate cowId softmax nodes cur inputId rest
      (if softmax && GoFloat.lt maxValue value then value else maxValue)
    pure ({ Index := id, Value := value } :: pairs, m)

/-- The loop layer/layer.go:540-547. -/
def exponentiate (cowId : Int) (nodes norm : Slice) (inputId : Int) (maxValue : F) : List (Pair F) → WM F (List (Pair F))
  | [] => pure []
  | pair :: rest => do
    let realActivation := GoFloat.exp (GoFloat.sub pair.Value maxValue)
    let p ← onHeap (nodePtr nodes pair.Index)
    let p ← onHeap (setlastActivation p cowId inputId realActivation)
    onHeap (setNodePtr nodes pair.Index p)
    let c ← constAt norm inputId
    setConst norm inputId (GoFloat.add c realActivation)
    let pairs ← exponentiate cowId nodes norm inputId maxValue rest
    pure ({ Index := pair.Index, Value := realActivation } :: pairs)

/-- layer/layer.go:519-548 -/
def activations (cowId : Int) (x : Layer) (cur : List (Pair F)) (inputId : Int) (ids : List Int) : WM F (List (Pair F)) :=
  if x.nodeType = Softmax then do
    setConst x.normalizationConstants inputId GoFloat.zero
    let (pairs, m) ← onHeap (activate cowId true x.nodes cur inputId ids GoFloat.zero)
    exponentiate cowId x.nodes x.normalizationConstants inputId m pairs
  else do
    let (pairs, _) ← onHeap (activate cowId false x.nodes cur inputId ids GoFloat.zero)
    pure pairs

/-- `QueryActiveNodeAndComputeActivations`, layer/layer.go:275-551. `cur` is `activeNodesPerLayer[layerIndex]`
and the second result the new `activeNodesPerLayer[layerIndex+1]` (which is nil before, both in
network/network.go:115 and 187). -/
def query (cfg : Config F) (fuel : Nat) (p : Ptr) (cowId : Int) (cur : List (Pair F)) (inputId : Int) (label : List Int)
    (sparsity : F) : WM F (Int × List (Pair F) × Ptr) := do
  let l ← cloneIfNeeded p cowId
  let x ← layer l
  let (found, ids) ← select cfg fuel x cur label sparsity
  let pairs ← activations cowId x cur inputId (ids.getD [])
  pure (found, pairs, l)

/-- `GetNomalizationConstant`, layer/layer.go:268-273. -/
def getNomalizationConstant (p : Ptr) (inputId : Int) : WM F F := do
  let x ← layer p
  if x.nodeType ≠ Softmax then M.throw (.msg "Call to GetNomalizationConstant for non-softmax layer")
  else constAt x.normalizationConstants inputId

/-- `GetNodeById`, layer/layer.go:260-262. -/
def getNodeById (p : Ptr) (nodeId : Int) : WM F Ptr := do
  let x ← layer p
  onHeap (nodePtr x.nodes nodeId)

/-- `ClearHashTables`, layer/layer.go:553-555. -/
def clearHashTables (p : Ptr) : WM F Unit := do
  let x ← layer p
  let s ← tables x.hashTables
  setTables x.hashTables (Lsh.clear s)

end Goslide.Layer

import Verif.Spec.Network
/-
Reference semantics of a training step: functions on the observations of the nodes, without memory.
-/
namespace Goslide.Layer
variable {F : Type} [GoFloat F]

/-- What is stored for a layer, without the observations of the nodes. -/
def State.skel (g : State F) : Ptr × Layer × List Ptr × List Int × List F × Lsh.LSH :=
  (g.ptr, g.obj, g.nodes.map Prod.fst, g.order, g.norm, g.tables)

end Goslide.Layer

namespace Goslide.Spec.Network
open Goslide.Node Goslide.Spec.Node
variable {F : Type} [GoFloat F]

/-- A node after the softmax step of input `i`, in the last layer (`soft` = normalization constant and labels). -/
def softView (i : Nat) (soft : Option (F × List Int)) (v : View F) : View F :=
  match soft with
  | none => v
  | some (norm, labels) => v.setSlot i (softmaxSlot v.params norm labels)

/-- The delta of input `i`. -/
def deltaAt (v : View F) (i : Nat) : F :=
  match v.train[i]? with
  | none => GoFloat.zero
  | some s => s.delta

/-- A node `v` and the previous layer `us` after back-propagation of input `i` through the node. In the first layer
`inputs` are the features, otherwise the active nodes of the previous layer. -/
def backView (adam : Bool) (lr : F) (i : Nat) (soft : Option (F × List Int)) (first : Bool) (inputs : List (Pair F))
    (v : View F) (us : List (View F)) : View F × List (View F) :=
  if first then (backPropFirst adam lr (deltaAt (softView i soft v) i) i (softView i soft v) inputs, us)
  else backProp adam lr (deltaAt (softView i soft v) i) i (softView i soft v) us inputs

/-- The same inside the layer. -/
def backAt (adam : Bool) (lr : F) (i : Nat) (soft : Option (F × List Int)) (first : Bool) (inputs : List (Pair F))
    (st : List (View F) × List (View F)) (pair : Pair F) : List (View F) × List (View F) :=
  match st.1[pair.Index.toNat]? with
  | none => st
  | some v =>
    let r := backView adam lr i soft first inputs v st.2
    (st.1.set pair.Index.toNat r.1, r.2)

/-- What back-propagation of input `i` through the node needs. -/
def BackReady (adam : Bool) (i : Nat) (first : Bool) (inputs : List (Pair F)) (st : List (View F) × List (View F)) (pair : Pair F) : Prop :=
  0 ≤ pair.Index ∧ ∃ v s, st.1[pair.Index.toNat]? = some v ∧ v.train[i]? = some s ∧ s.active = true ∧
    if first then ∀ x ∈ inputs, 0 ≤ x.Index ∧ x.Index < v.params.weights.length ∧ (adam = true → x.Index < v.params.t.length)
    else Ready adam v.params st.2 i inputs

/-- What back-propagation through the listed nodes needs: each is ready when its turn comes. -/
def AllReady (adam : Bool) (lr : F) (i : Nat) (soft : Option (F × List Int)) (first : Bool) (inputs : List (Pair F)) :
    List (Pair F) → List (View F) × List (View F) → Prop
  | [], _ => True
  | pair :: rest, st => BackReady adam i first inputs st pair ∧
      AllReady adam lr i soft first inputs rest (backAt adam lr i soft first inputs st pair)

/-- Back-propagation through the listed nodes of a layer, one after the other: the layer and the previous one. -/
def backLayerV (adam : Bool) (lr : F) (i : Nat) (soft : Option (F × List Int)) (first : Bool) (inputs : List (Pair F))
    (pairs : List (Pair F)) (st : List (View F) × List (View F)) : List (View F) × List (View F) :=
  pairs.foldl (backAt adam lr i soft first inputs) st

/-- The labels and the normalization constant matter in the last layer. -/
def softOf (len n : Nat) (norm : F) (labels : List Int) : Option (F × List Int) :=
  if n + 1 = len then some (norm, labels) else none

/-- Layer `n` and the previous one replaced. -/
def setPair (V : List (List (View F))) (n : Nat) (r : List (View F) × List (View F)) : List (List (View F)) :=
  if n = 0 then V.set n r.1 else (V.set n r.1).set (n - 1) r.2

/-- Layer `n` and the previous one. -/
def getPair (V : List (List (View F))) (n : Nat) : List (View F) × List (View F) :=
  ((V[n]?).getD [], if n = 0 then [] else (V[n - 1]?).getD [])

/-- Layer `n` and the previous one after back-propagation through layer `n`; `acts` are the features and then the
active nodes of the layers. -/
def backwardAt (adam : Bool) (lr : F) (i : Nat) (norm : F) (labels : List Int) (acts : List (List (Pair F))) (n : Nat)
    (V : List (List (View F))) : List (View F) × List (View F) :=
  backLayerV adam lr i (softOf V.length n norm labels) (n == 0) ((acts[n]?).getD []) ((acts[n + 1]?).getD []) (getPair V n)

/-- The network after back-propagation of input `i` through the layers `n-1, …, 0`. -/
def backwardV (adam : Bool) (lr : F) (i : Nat) (norm : F) (labels : List Int) (acts : List (List (Pair F))) :
    (n : Nat) → List (List (View F)) → List (List (View F))
  | 0, V => V
  | n + 1, V => backwardV adam lr i norm labels acts n (setPair V n (backwardAt adam lr i norm labels acts n V))

/-- What the whole back-propagation needs. -/
def BackwardReady (adam : Bool) (lr : F) (i : Nat) (norm : F) (labels : List Int) (acts : List (List (Pair F))) :
    (n : Nat) → List (List (View F)) → Prop
  | 0, _ => True
  | n + 1, V =>
    n + 1 < acts.length ∧ n < V.length ∧
    AllReady adam lr i (softOf V.length n norm labels) (n == 0) ((acts[n]?).getD []) ((acts[n + 1]?).getD []) (getPair V n) ∧
    BackwardReady adam lr i norm labels acts n (setPair V n (backwardAt adam lr i norm labels acts n V))

/-! ### Adam -/

/-- `0.9 m + 0.1 g` -/
def adamMom (m g : F) : F := GoFloat.add (GoFloat.mul (GoFloat.const (9 / 10)) m) (GoFloat.mul (GoFloat.const (1 / 10)) g)

/-- `0.999 v + 0.001 g g` -/
def adamVel (v g : F) : F :=
  GoFloat.add (GoFloat.mul (GoFloat.const (999 / 1000)) v) (GoFloat.mul (GoFloat.mul (GoFloat.const (1 / 1000)) g) g)

/-- `w + lr m / (√v + 1e-8)`; the code multiplies `lr` with the constant `ratio = 1`. -/
def adamWeight (lr w m v : F) : F :=
  GoFloat.add w (GoFloat.div (GoFloat.mul (GoFloat.mul GoFloat.one lr) m) (GoFloat.add (GoFloat.sqrt v) (GoFloat.const (1 / 100000000))))

/-- The learning rate of step `iter` (counted from 0) with the bias correction of Adam: `rate √(1 - 0.999^(iter+1)) / (1 - 0.9^(iter+1))`. -/
def adamRate (rate : F) (iter : Int) : F :=
  GoFloat.div
    (GoFloat.mul rate (GoFloat.sqrt (GoFloat.sub (GoFloat.const 1) (GoFloat.pow (GoFloat.const (999 / 1000)) (GoFloat.add (GoFloat.ofInt iter) (GoFloat.const 1))))))
    (GoFloat.sub (GoFloat.const 1) (GoFloat.pow (GoFloat.const (9 / 10)) (GoFloat.add (GoFloat.ofInt iter) (GoFloat.const 1))))

/-- A node after the update: with Adam every weight and the bias are updated with their accumulated gradients, which
are then 0; without Adam the weights have already been changed and the mirror bias becomes the bias. -/
def finished (adam : Bool) (lr : F) (P : Params F) : Params F :=
  if adam then
    let mom := List.zipWith adamMom P.mom P.t
    let vel := List.zipWith adamVel P.vel P.t
    let weights := List.zipWith (fun w x => adamWeight lr w x.1 x.2) P.weights (mom.zip vel)
    { P with
      weights := weights
      mirrorWeights := weights
      mom := mom
      vel := vel
      t := List.replicate P.t.length GoFloat.zero
      momBias := adamMom P.momBias P.tBias
      velBias := adamVel P.velBias P.tBias
      bias := adamWeight lr P.bias (adamMom P.momBias P.tBias) (adamVel P.velBias P.tBias)
      tBias := GoFloat.zero }
  else { P with bias := P.mirrorBias }

/-- A node after the update; the training state is kept. -/
def finishView (adam : Bool) (lr : F) (v : View F) : View F := { v with params := finished adam lr v.params }

/-- The Adam update of a node, number by number: `P` before the update, `G` and `gb` the accumulated gradients, `P'` the result. -/
structure AdamStep (lr : F) (P : Params F) (G : List F) (gb : F) (P' : Params F) : Prop where
  len : P'.weights.length = P.weights.length ∧ P'.t.length = P.weights.length ∧ G.length = P.weights.length
  step : ∀ (k : Nat) (w m v g : F), P.weights[k]? = some w → P.mom[k]? = some m → P.vel[k]? = some v → G[k]? = some g →
    P'.mom[k]? = some (GoFloat.add (GoFloat.mul (GoFloat.const (9 / 10)) m) (GoFloat.mul (GoFloat.const (1 / 10)) g)) ∧
    P'.vel[k]? = some (GoFloat.add (GoFloat.mul (GoFloat.const (999 / 1000)) v)
      (GoFloat.mul (GoFloat.mul (GoFloat.const (1 / 1000)) g) g)) ∧
    ∃ m' v', P'.mom[k]? = some m' ∧ P'.vel[k]? = some v' ∧
      P'.weights[k]? = some (GoFloat.add w (GoFloat.div (GoFloat.mul (GoFloat.mul GoFloat.one lr) m')
        (GoFloat.add (GoFloat.sqrt v') (GoFloat.const (1 / 100000000)))))
  momBias : P'.momBias = GoFloat.add (GoFloat.mul (GoFloat.const (9 / 10)) P.momBias) (GoFloat.mul (GoFloat.const (1 / 10)) gb)
  velBias : P'.velBias = GoFloat.add (GoFloat.mul (GoFloat.const (999 / 1000)) P.velBias)
    (GoFloat.mul (GoFloat.mul (GoFloat.const (1 / 1000)) gb) gb)
  bias : P'.bias = GoFloat.add P.bias (GoFloat.div (GoFloat.mul (GoFloat.mul GoFloat.one lr) P'.momBias)
    (GoFloat.add (GoFloat.sqrt P'.velBias) (GoFloat.const (1 / 100000000))))
  zero : ∀ g ∈ P'.t, g = GoFloat.zero
  zeroBias : P'.tBias = GoFloat.zero
  same : P'.nodeType = P.nodeType ∧ P'.batch = P.batch ∧ P'.id = P.id

/-! ### A whole step -/

/-- The nodes of the layers after the forward pass of input `i` with the active nodes `S`. -/
def forwardV (i : Nat) : List (Bool × List (View F)) → List (Pair F) → List (List Int) → List (List (View F))
  | (b, vs) :: L, data, ids :: S => forwardViews b i vs data ids :: forwardV i L (outputs b vs data ids) S
  | _, _, _ => []

/-- The normalization constant of the last layer. -/
def normOf (acts : List (List (Pair F))) : F := sum (((acts.getLast?).getD []).map Pair.Value)

/-- The nodes after the forward and the backward pass of input `i`; `B` says which layers are softmax layers. -/
def exampleV (adam : Bool) (lr : F) (B : List Bool) (i : Nat) (ex : Example F) (S : List (List Int)) (V : List (List (View F))) :
    List (List (View F)) :=
  let acts := ex.Features :: evaluate (B.zip V) ex.Features S
  backwardV adam lr i (normOf acts) ex.Labels acts V.length (forwardV i (B.zip V) ex.Features S)

/-- The nodes after the passes of all examples, the first being input `i`. -/
def batchV (adam : Bool) (lr : F) (B : List Bool) : (i : Nat) → List (Example F) → List (List (List Int)) → List (List (View F)) →
    List (List (View F))
  | i, ex :: es, S :: T, V => batchV adam lr B (i + 1) es T (exampleV adam lr B i ex S V)
  | _, _, _, V => V

end Goslide.Spec.Network

namespace Goslide.Spec.Node
variable {F : Type} [GoFloat F]

/-- What training does not change in a node: its type, batch size, id and the lengths of its vectors. -/
structure Dims where
  nodeType : Int
  batch : Int
  id : Int
  weights : Nat
  mom : Nat
  vel : Nat
  t : Nat
  train : Nat
deriving Repr, DecidableEq

def View.dims (v : View F) : Dims where
  nodeType := v.params.nodeType
  batch := v.params.batch
  id := v.params.id
  weights := v.params.weights.length
  mom := v.params.mom.length
  vel := v.params.vel.length
  t := v.params.t.length
  train := v.train.length

end Goslide.Spec.Node

namespace Goslide.Network
open Goslide.Layer Goslide.Node Goslide.Spec.Node
variable {F : Type} [GoFloat F]

/-- The last layer is a softmax layer. -/
def LastSoft (Q : List (State F)) : Prop := ∀ g, Q[Q.length - 1]? = some g → g.softmax = true

/-- The active nodes `S` of the training input `i`: as for prediction, and moreover distinct nodes with a training state for the input. -/
structure TrainedOn (sparsity : List F) (Q : List (State F)) (i : Nat) (S : List (List Int)) : Prop where
  active : Spec.Network.ActiveOn sparsity 0 Q S
  nodup : ∀ ids ∈ S, ids.Nodup
  slot : ∀ (j : Nat) (g : State F) (ids : List Int), Q[j]? = some g → S[j]? = some ids → ∀ id ∈ ids, ∀ v, g.views[id.toNat]? = some v →
    i < v.train.length

/-- The number of inputs of layer `j`, where the first one has `dim`. -/
def inputSize (dim : Nat) (Q : List (State F)) : Nat → Nat
  | 0 => dim
  | j + 1 => match Q[j]? with
    | none => 0
    | some g => g.nodes.length

/-- The shape of a node of a network with batches of size `b`, in a layer with `inputs` inputs. -/
structure NodeShape (adam : Bool) (b inputs : Nat) (v : View F) : Prop where
  type : v.params.nodeType = ReLU ∨ v.params.nodeType = Softmax
  batch : v.params.batch = b
  train : v.train.length = b
  weights : v.params.weights.length = inputs
  adam : adam = true → v.params.mom.length = inputs ∧ v.params.vel.length = inputs ∧ v.params.t.length = inputs

/-- The shape of a network with batches of size `b` and inputs of dimension `dim`. -/
structure Shaped (adam : Bool) (b dim : Nat) (Q : List (State F)) : Prop where
  nodes : ∀ (j : Nat) (g : State F), Q[j]? = some g → ∀ v ∈ g.views, NodeShape adam b (inputSize dim Q j) v
  norm : ∀ g ∈ Q, g.softmax = true → g.norm.length = b
  last : LastSoft Q

/-- A network of `c` that can be trained (by `c`). -/
structure Trainable (cfg : Configuration.Config F) (b dim : Nat) (c : Int) (w : World F) (p : Ptr) (n : Network F) (Q : List (State F)) : Prop where
  net : NetAt w p n Q
  owned : OwnedBy w Q c
  cow : n.cowId = c
  shaped : Shaped cfg.UseAdam b dim Q

end Goslide.Network

namespace Goslide.Spec.Network
open Goslide.Layer
variable {F : Type}

/-- The same memory up to what the outside world will deliver (random draws, map orders, hash seeds), with the arrays
of `int` (they hold nothing but the padding orders of the layers) related by `I`. -/
structure SameMemory (I : List (List Int) → List (List Int) → Prop) (w v : World F) : Prop where
  heap : w.heap = v.heap
  ints : I w.ints v.ints
  lshs : w.lshs = v.lshs
  consts : w.consts = v.consts
  layers : w.layers = v.layers
  layerArrs : w.layerArrs = v.layerArrs
  networks : w.networks = v.networks

/-- The same result with the same memory, or the same panic. -/
def SameOutcome (I : List (List Int) → List (List Int) → Prop) : Go (α × World F) → Go (α × World F) → Prop
  | .ok a, .ok b => a.1 = b.1 ∧ SameMemory I a.2 b.2
  | .error e, .error f => e = f
  | _, _ => False

/-- All layers are full. -/
def Full [GoFloat F] (sparsity : List F) : Prop :=
  ∀ sp ∈ sparsity, GoFloat.eq sp (GoFloat.one : F) = true ∧ GoFloat.lt sp (GoFloat.one : F) = false

/-- The same lengths of the arrays. -/
def SameLengths (a b : List (List Int)) : Prop := a.map List.length = b.map List.length

end Goslide.Spec.Network

namespace Goslide.Spec.Network
open Goslide.Layer Goslide.Xcrepo
variable {F : Type} [GoFloat F]

/-- The arguments of `network.New` after the cowId. -/
structure NetArgs (F : Type) where
  layers : Int
  sizes : List Int
  types : List Int
  batch : Int
  rate : F
  dim : Int
  k : List Int
  l : List Int
  rangePow : List Int
  sparsity : List F

/-- The layers are ReLU or softmax layers, the last one is a softmax layer. -/
structure NetArgs.Typed (a : NetArgs F) : Prop where
  types : ∀ (j : Nat) (ty : Int), (j : Int) < a.layers → a.types[j]? = some ty → ty = Node.ReLU ∨ ty = Node.Softmax
  last : a.types[(a.layers - 1).toNat]? = some Node.Softmax

/-- The network `p` was built by `New` with the cowId `c` and then used by `c` for any number of training steps and predictions. In
between, anybody may draw random numbers. -/
inductive Life (cfg : Configuration.Config F) (c : Int) (a : NetArgs F) : World F → Ptr → Prop where
  | new {w w' : World F} {p : Ptr} (h : Network.new cfg c a.layers a.sizes a.types a.batch a.rate a.dim a.k a.l a.rangePow a.sparsity w = .ok (p, w')) :
      Life cfg c a w' p
  | train {w w' : World F} {p p' : Ptr} {fuel : Nat} {es : List (Example F)} {iter : Int} {rehash rebuild : Bool} {x : F} (h : Life cfg c a w p)
      (hr : Network.processInput cfg fuel p c es iter rehash rebuild w = .ok ((x, p'), w')) : Life cfg c a w' p'
  | predict {w w' : World F} {p p' : Ptr} {fuel : Nat} {es : List (Example F)} {m : Int} (h : Life cfg c a w p)
      (hr : Network.predictClass cfg fuel p c es w = .ok ((m, p'), w')) : Life cfg c a w' p'
  | draws {w : World F} {p : Ptr} {r m : Rng} {s : Nat → F} {f : Nat → Nat → BitVec 64} (h : Life cfg c a w p) :
      Life cfg c a { w with rng := r, mapRng := m, norms := s, hashes := f } p

/-- What is learned, read through the network pointer `p`: per layer the parameters of the nodes, the hash tables and the padding
order. -/
def learned (w : World F) (p : Ptr) : Option (List (List (Spec.Node.Params F) × Lsh.LSH × List Int)) := do
  let n ← w.networks[p]?
  let ptrs ← readSlice w.layerArrs n.hiddenLayers
  ptrs.mapM (fun q => do
    let x ← w.layers[q]?
    let nodes ← readSlice w.heap.nodeArrs x.nodes
    let ps ← nodes.mapM (Spec.Node.params w.heap)
    let t ← w.lshs[x.hashTables]?
    let o ← readSlice w.ints x.randNode
    some (ps, t, o))

/-- Parameters of a layer with `n` inputs for which the index computed from the codes of an input lies inside the tables: DWTA
codes (hash function 2) are below 8 and take 2 bits each, signs (hash function 4) take one bit; minhash codes (hash function 3) are masked, but the bins of the inputs have to be computed exactly (C23)
and the 30 smallest weights have to exist. -/
def HashParams (cfg : Configuration.Config F) (n k l rangePow : Int) : Prop :=
  rangePow < 63 ∧ match cfg.HashFunction with
    | 2 => 0 < n ∧ k ≤ 30 ∧ k * l < 2 ^ 32 ∧ (2 * k + 2 ≤ rangePow ∨ 3 * k ≤ rangePow)
    | 4 => n ≤ 2 ^ 53 ∧ k ≤ 62 ∧ k ≤ rangePow
    | 3 => 30 ≤ n ∧ n ≤ 53 ∧ 0 < k * l ∧ k * l < 2 ^ 32
    | _ => False

/-- The least number of pairs that can be hashed. -/
def fewest (cfg : Configuration.Config F) : Nat := if cfg.HashFunction = 3 then 30 else 0

/-- The number of inputs of layer `j`. -/
def NetArgs.inputs (a : NetArgs F) (j : Nat) : Int := if j = 0 then a.dim else (a.sizes[j - 1]?).getD 0

/-- The number of nodes that mode 2 wants of a layer of `size` nodes with sparsity `sp`. -/
def wanted (size : Int) (sp : F) : Int := GoFloat.floorInt (GoFloat.mul (GoFloat.ofInt size) sp)

/-- A random source that hits every node of every layer again and again. -/
def FairSource (sizes : List Int) (r : Rng) : Prop := ∀ size ∈ sizes, ∀ v < size.toNat, ∀ k, ∃ i, k ≤ i ∧ r i % size.toNat = v

/-- With the sparsities from `off` on every layer is full, or it is a nonempty layer whose parameters fit. Then in mode 2 no more than all nodes
are wanted and the layer is not larger than the table of used nodes; in mode 3 it is not a softmax layer (C58); and with minhash the layer
before is full. -/
def LayersOk (cfg : Configuration.Config F) (a : NetArgs F) (off : Nat) : Prop :=
  ∀ (j : Nat) (size k l rp : Int), (j : Int) < a.layers → a.sizes[j]? = some size → a.k[j]? = some k → a.l[j]? = some l → a.rangePow[j]? = some rp →
    ∃ sp, a.sparsity[off + j]? = some sp ∧
      ((GoFloat.eq sp (GoFloat.one : F) = true ∧ GoFloat.lt sp (GoFloat.one : F) = false) ∨
        (cfg.LayerMode = 2 → size ≤ 325056 ∧ 0 ≤ wanted size sp ∧ wanted size sp ≤ size) ∧ (cfg.LayerMode = 3 → a.types[j]? ≠ some Node.Softmax) ∧
        (fewest cfg ≠ 0 → 0 < j → ∃ sp', a.sparsity[off + (j - 1)]? = some sp' ∧ GoFloat.eq sp' (GoFloat.one : F) = true) ∧
          0 < size ∧ HashParams cfg (a.inputs j) k l rp)

/-- The example fits the network: its features are inputs, and no more than there are inputs (but enough for the hash function) if the first
layer is not full; the labels are nodes of every softmax layer that is not full, they are distinct in modes 2 and 4, and no more than the wanted
number in mode 2. -/
structure Fits (cfg : Configuration.Config F) (a : NetArgs F) (off : Nat) (features : List (Pair F)) (labels : List Int) : Prop where
  index : ∀ x ∈ features, 0 ≤ x.Index ∧ x.Index < a.dim
  count : ∀ sp, a.sparsity[off]? = some sp → GoFloat.eq sp (GoFloat.one : F) = false →
    fewest cfg ≤ features.length ∧ features.length ≤ a.dim
  labels : ∀ (j : Nat) (sp : F) (size : Int), (j : Int) < a.layers → a.sparsity[off + j]? = some sp → GoFloat.eq sp (GoFloat.one : F) = false →
    a.types[j]? = some Node.Softmax → a.sizes[j]? = some size →
    (∀ y ∈ labels, 0 ≤ y ∧ y < size) ∧ (cfg.LayerMode = 2 ∨ cfg.LayerMode = 4 → labels.Nodup) ∧
      (cfg.LayerMode = 2 → (labels.length : Int) ≤ wanted size sp)

/-- A call of a method of a network. -/
inductive NetCall (F : Type) where
  | train (es : List (Example F)) (iter : Int) (rehash rebuild : Bool)
  | predict (es : List (Example F))

/-- The calls one after the other, each on the network returned by the one before. -/
def runCalls (cfg : Configuration.Config F) (fuel : Nat) (c : Int) : List (NetCall F) → Ptr → World F → Go (Ptr × World F)
  | [], p, w => .ok (p, w)
  | .train es iter rehash rebuild :: calls, p, w =>
    match Network.processInput cfg fuel p c es iter rehash rebuild w with
    | .ok ((_, p'), w') => runCalls cfg fuel c calls p' w'
    | .error e => .error e
  | .predict es :: calls, p, w =>
    match Network.predictClass cfg fuel p c es w with
    | .ok ((_, p'), w') => runCalls cfg fuel c calls p' w'
    | .error e => .error e

/-- At most a batch of examples that fit. -/
def CallOk (cfg : Configuration.Config F) (a : NetArgs F) : NetCall F → Prop
  | .train es _ _ _ => es.length ≤ a.batch ∧ ∀ ex ∈ es, Fits cfg a 0 ex.Features ex.Labels
  | .predict es => es.length ≤ a.batch ∧ ∀ ex ∈ es, Fits cfg a a.layers.toNat ex.Features []

end Goslide.Spec.Network

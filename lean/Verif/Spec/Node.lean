import Verif.Model.Node
/-
What can be observed through a node handle, and the specification of the node operations on that.
-/
namespace Goslide.Spec.Node
open Goslide.Node
variable {F : Type} [GoFloat F]

/-- The parameters of a node: everything its base holds, without pointers and cowIds. -/
structure Params (F : Type) where
  nodeType : Int
  batch : Int
  id : Int
  weights : List F
  mirrorWeights : List F
  mom : List F
  vel : List F
  t : List F
  bias : F
  mirrorBias : F
  tBias : F
  momBias : F
  velBias : F
deriving Repr, DecidableEq

/-- The training state of a node for one input of the batch. -/
structure Slot (F : Type) where
  active : Bool
  act : F
  delta : F
deriving Repr, DecidableEq

/-- All that is observable through a node handle. -/
structure View (F : Type) where
  params : Params F
  train : List (Slot F)
deriving Repr, DecidableEq

/-- Observation of one training-state object. -/
def slot (t : NodeTrain F) : Slot F :=
  { active := t.activeinputIds, act := t.lastActivations, delta := t.lastDeltaforBPs }

/-- Observation of a base. -/
def baseParams (floats : List (List F)) (b : BaseNode F) : Option (Params F) :=
  match readSlice floats b.weights, readSlice floats b.mirrorWeights, readSlice floats b.adamAvgMom,
      readSlice floats b.adamAvgVel, readSlice floats b.t with
  | some w, some mw, some m, some v, some t => some
    { nodeType := b.nodeType, batch := b.currentBatchsize, id := b.idInLayer,
      weights := w, mirrorWeights := mw, mom := m, vel := v, t := t,
      bias := b.bias, mirrorBias := b.mirrorBias, tBias := b.tBias,
      momBias := b.adamAvgMomBias, velBias := b.adamAvgVelBias }
  | _, _, _, _, _ => none

/-- The parameters seen through handle `p`; `none` for an invalid handle. -/
def params (h : Heap F) (p : Ptr) : Option (Params F) :=
  match h.nodes[p]? with
  | none => none
  | some n => match h.bases[n.base]? with
    | none => none
    | some b => baseParams h.floats b

/-- The training-state objects of handle `p`. -/
def slotPtrs (h : Heap F) (p : Ptr) : Option (List Ptr) :=
  match h.nodes[p]? with
  | none => none
  | some n => readSlice h.trainArrs n.train

/-- Observation of a list of pointers to training states. -/
def slotsAt (trains : List (NodeTrain F)) : List Ptr → Option (List (Slot F))
  | [] => some []
  | q :: qs => match trains[q]?, slotsAt trains qs with
    | some t, some ts => some (slot t :: ts)
    | _, _ => none

/-- The training state seen through handle `p`. -/
def slots (h : Heap F) (p : Ptr) : Option (List (Slot F)) :=
  match slotPtrs h p with
  | none => none
  | some qs => slotsAt h.trains qs

/-- Everything seen through handle `p`. -/
def view (h : Heap F) (p : Ptr) : Option (View F) :=
  match params h p, slots h p with
  | some P, some T => some { params := P, train := T }
  | _, _ => none

/-- A well-formed handle with the given observation: one training state per input of the batch, all
distinct. `NewNode` and the nodes of a layer are of this form and every operation keeps it. -/
structure Handle (h : Heap F) (p : Ptr) (v : View F) : Prop where
  view : view h p = some v
  batch : (v.train.length : Int) = v.params.batch
  nodup : ∀ qs, slotPtrs h p = some qs → qs.Nodup

/-- `bias + Σ weight*value` in the order of `data`; absent weights do not occur, see `InRange`. -/
def preActivation (P : Params F) (data : List (Pair F)) : F :=
  GoFloat.add (data.foldl (fun acc x =>
    GoFloat.add acc (GoFloat.mul ((P.weights[x.Index.toNat]?).getD GoFloat.zero) x.Value)) GoFloat.zero) P.bias

/-- Every feature has a weight. -/
def InRange (P : Params F) (data : List (Pair F)) : Prop :=
  ∀ x ∈ data, 0 ≤ x.Index ∧ x.Index < P.weights.length

/-- A negative pre-activation of a ReLU node is cut off. -/
def Clamped (P : Params F) (data : List (Pair F)) : Bool :=
  P.nodeType = 0 && GoFloat.lt (preActivation P data) GoFloat.zero

/-- The activation of a node. -/
def activation (P : Params F) (data : List (Pair F)) : F :=
  if Clamped P data then GoFloat.zero else preActivation P data

/-- The training state of input `i` replaced. -/
def View.setSlot (v : View F) (i : Nat) (f : Slot F → Slot F) : View F := { v with train := v.train.modify i f }

/-- `c` owns neither the node `p` nor its base nor any of its training states. -/
def Foreign (h : Heap F) (p : Ptr) (c : Int) : Prop :=
  (∀ n, h.nodes[p]? = some n → n.cowId ≠ c ∧ ∀ b, h.bases[n.base]? = some b → b.cowId ≠ c) ∧
  ∀ qs, slotPtrs h p = some qs → ∀ q ∈ qs, ∀ t, h.trains[q]? = some t → t.cowId ≠ c

/-- `c` owns the node `p`, its base and all its training states. -/
def Owned (h : Heap F) (p : Ptr) (c : Int) : Prop :=
  (∀ n, h.nodes[p]? = some n → n.cowId = c ∧ ∀ b, h.bases[n.base]? = some b → b.cowId = c) ∧
  ∀ qs, slotPtrs h p = some qs → ∀ q ∈ qs, ∀ t, h.trains[q]? = some t → t.cowId = c

/-- No two nodes share a cell that holds a pointer to a training state (they may share the states). -/
def Disj (h : Heap F) : Prop :=
  (∀ (p : Ptr) (n : Node), h.nodes[p]? = some n → n.train.len = 0 ∨ n.train.arr < h.trainArrs.length) ∧
  ∀ (p p' : Ptr) (n n' : Node), p ≠ p' → h.nodes[p]? = some n → h.nodes[p']? = some n' →
    n.train.Disjoint n'.train

/-- The vectors of a base. -/
def vecs (b : BaseNode F) : List Slice := [b.weights, b.mirrorWeights, b.adamAvgMom, b.adamAvgVel, b.t]

/-- Two nodes that share nothing: no training state, no base, no cell of a vector. -/
structure Sep (h : Heap F) (p p' : Ptr) : Prop where
  cells : ∀ n n', h.nodes[p]? = some n → h.nodes[p']? = some n' →
    n.train.Disjoint n'.train ∧ n.base ≠ n'.base ∧
    ∀ b b', h.bases[n.base]? = some b → h.bases[n'.base]? = some b' →
      ∀ s ∈ vecs b, ∀ s' ∈ vecs b', s.Disjoint s'
  slots : ∀ qs qs', slotPtrs h p = some qs → slotPtrs h p' = some qs' → ∀ q ∈ qs, q ∉ qs'

/-- The vectors of a node do not overlap, except that the mirror weights *are* the weights
(node/node.go:78, 217). -/
def Inner (h : Heap F) (p : Ptr) : Prop :=
  ∀ n b, h.nodes[p]? = some n → h.bases[n.base]? = some b →
    b.mirrorWeights = b.weights ∧ b.weights.Disjoint b.adamAvgMom ∧ b.weights.Disjoint b.adamAvgVel ∧
    b.weights.Disjoint b.t ∧ b.adamAvgMom.Disjoint b.adamAvgVel ∧ b.adamAvgMom.Disjoint b.t ∧
    b.adamAvgVel.Disjoint b.t

/-- Nodes that share nothing, with their observations. -/
structure Group (h : Heap F) (L : List Ptr) (vs : List (View F)) : Prop where
  len : L.length = vs.length
  handle : ∀ (k : Nat) (p : Ptr) (v : View F), L[k]? = some p → vs[k]? = some v → Handle h p v
  inner : ∀ p ∈ L, Inner h p
  sep : ∀ (j k : Nat) (p p' : Ptr), j ≠ k → L[j]? = some p → L[k]? = some p' → Sep h p p'

/-- All nodes of a list belong to `c`. -/
def AllOwned (h : Heap F) (L : List Ptr) (c : Int) : Prop := ∀ p ∈ L, Owned h p c

/-! ### Back-propagation on observations -/

/-- Add `x` to the delta, if the activation is positive. -/
def bump (x : F) (s : Slot F) : Slot F :=
  if GoFloat.le s.act GoFloat.zero then s else { s with delta := GoFloat.add s.delta x }

/-- The gradient `g` of weight `k`: accumulated with Adam; otherwise applied with the learning rate, and at
once, because the mirror weights are the weights. -/
def addGrad (adam : Bool) (lr g : F) (k : Nat) (P : Params F) : Params F :=
  if adam then { P with t := P.t.modify k (fun x => GoFloat.add x g) }
  else { P with
    weights := P.weights.modify k (fun x => GoFloat.add x (GoFloat.mul lr g))
    mirrorWeights := P.weights.modify k (fun x => GoFloat.add x (GoFloat.mul lr g)) }

/-- The last activation of node `k` of a layer for input `i`. -/
def lastAct (vs : List (View F)) (k i : Nat) : F :=
  match vs[k]? with
  | none => GoFloat.zero
  | some v => match v.train[i]? with
    | none => GoFloat.zero
    | some s => s.act

/-- Contribution of one previous node: its delta and the gradient of the weight to it. -/
def backStep (adam : Bool) (lr d : F) (i : Nat) (st : Params F × List (View F)) (x : Pair F) :
    Params F × List (View F) :=
  let k := x.Index.toNat
  (addGrad adam lr (GoFloat.mul d (lastAct st.2 k i)) k st.1,
    st.2.modify k (fun v => v.setSlot i (bump (GoFloat.mul d ((st.1.weights[k]?).getD GoFloat.zero)))))

/-- The training state after back-propagation. -/
def idle : Slot F := { active := false, act := GoFloat.zero, delta := GoFloat.zero }

/-- Bias gradient: accumulated with Adam, otherwise `biasStep mirrorBias delta` is the new mirror bias. -/
def biasGrad (adam : Bool) (biasStep : F → F → F) (d : F) (P : Params F) : Params F :=
  if adam then { P with tBias := GoFloat.add P.tBias d } else { P with mirrorBias := biasStep P.mirrorBias d }

/-- The node `v` and the previous layer `vs` after back-propagation of input `i`, whose delta is `d`. -/
def backProp (adam : Bool) (lr d : F) (i : Nat) (v : View F) (vs : List (View F)) (pairs : List (Pair F)) :
    View F × List (View F) :=
  let st := pairs.foldl (backStep adam lr d i) (v.params, vs)
  ({ params := biasGrad adam (fun m d => GoFloat.add m (GoFloat.mul lr d)) d st.1, train := v.train.set i idle }, st.2)

/-- What back-propagation needs: a weight (and a gradient cell) for each listed node, and activity there. -/
def Ready (adam : Bool) (P : Params F) (vs : List (View F)) (i : Nat) (pairs : List (Pair F)) : Prop :=
  ∀ x ∈ pairs, 0 ≤ x.Index ∧ x.Index < P.weights.length ∧ (adam = true → x.Index < P.t.length) ∧
    ∃ v s, vs[x.Index.toNat]? = some v ∧ v.train[i]? = some s ∧ s.active = true

/-- The gradients of the first layer. -/
def firstGrads (adam : Bool) (lr d : F) (P : Params F) (pairs : List (Pair F)) : Params F :=
  pairs.foldl (fun P x => addGrad adam lr (GoFloat.mul d x.Value) x.Index.toNat P) P

/-- The node after first-layer back-propagation of input `i`, whose delta is `d`. -/
def backPropFirst (adam : Bool) (lr d : F) (i : Nat) (v : View F) (pairs : List (Pair F)) : View F :=
  { params := biasGrad adam (fun m d => GoFloat.add m (GoFloat.add lr d)) d (firstGrads adam lr d v.params pairs),
    train := v.train.set i idle }

/-- The training state after the softmax step: normalised activation, then the delta as the code computes
it. -/
def softmaxSlot (P : Params F) (norm : F) (labels : List Int) (s : Slot F) : Slot F :=
  let act := GoFloat.div s.act (GoFloat.add norm (GoFloat.const (1 / 10000000)))
  { s with
    act := act
    delta := if intSliceContains labels P.id then
        GoFloat.sub (GoFloat.div GoFloat.one (GoFloat.ofInt labels.length)) (GoFloat.div act (GoFloat.ofInt P.batch))
      else GoFloat.div (GoFloat.neg act) (GoFloat.ofInt P.batch) }

/-- The parameters of a node without its vectors. -/
structure Scalars (F : Type) where
  nodeType : Int
  batch : Int
  id : Int
  bias : F
  mirrorBias : F
  tBias : F
  momBias : F
  velBias : F
deriving Repr, DecidableEq

/-- The scalar parameters seen through handle `p`. -/
def scalars (h : Heap F) (p : Ptr) : Option (Scalars F) :=
  match h.nodes[p]? with
  | none => none
  | some n => match h.bases[n.base]? with
    | none => none
    | some b => some
      { nodeType := b.nodeType, batch := b.currentBatchsize, id := b.idInLayer, bias := b.bias,
        mirrorBias := b.mirrorBias, tBias := b.tBias, momBias := b.adamAvgMomBias, velBias := b.adamAvgVelBias }

/-- Node `k` is in the list of active nodes. -/
def listed (pairs : List (Pair F)) (k : Nat) : Bool := pairs.any (fun x => x.Index.toNat = k)

/-- `(target - probability) / batch`. -/
def crossEntropyDelta (P : Params F) (labels : List Int) (prob : F) : F :=
  GoFloat.div (GoFloat.sub
    (if P.id ∈ labels then GoFloat.div GoFloat.one (GoFloat.ofInt labels.length) else GoFloat.zero) prob)
    (GoFloat.ofInt P.batch)

/-- Copy-on-write protects everything that `c` does not own. -/
def Isolates (h h' : Heap F) (p : Ptr) (c : Int) : Prop :=
  ∀ p' v', Handle h p' v' → Foreign h p' c → (p' = p ∨ Disj h) → Handle h' p' v' ∧ Foreign h' p' c


/-! ### Histories -/

/-- One use of the package; the node, vector and array arguments are arbitrary. `Update` is left out: it is
used during the construction of a layer only. -/
inductive Call (F : Type) where
  /-- `NewNode` -/
  | new (dim id : Int) (ty : NodeType) (batch : Int) (w : Slice) (bias : F) (m v : Slice)
  /-- `NewEmptyNode` -/
  | newEmpty
  /-- `make([]float64, ..)` -/
  | makeVec (l : List F)
  /-- `make([]*Node, ..)` -/
  | makeNodes (l : List Ptr)
  /-- an assignment to an element of some `[]float64`, e.g. one returned by `Weights` -/
  | poke (s : Slice) (i : Int) (x : F)
  /-- `SetT` -/
  | setT (p : Ptr) (i : Int) (x : F)
  /-- `SetAdamAvgMom` -/
  | setMom (p : Ptr) (i : Int) (x : F)
  /-- `SetAdamAvgVel` -/
  | setVel (p : Ptr) (i : Int) (x : F)
  /-- `SetAdamAvgMomBias` -/
  | setMomBias (p : Ptr) (x : F)
  /-- `SetAdamAvgVelBias` -/
  | setVelBias (p : Ptr) (x : F)
  /-- `SetBias` -/
  | setBias (p : Ptr) (x : F)
  /-- `SetTBias` -/
  | setTBias (p : Ptr) (x : F)
  /-- `CopyWeightsAndBiasFromMirror` -/
  | copyMirror (p : Ptr)
  /-- `GetActivation` -/
  | getActivation (p : Ptr) (data : List (Pair F)) (i : Int)
  /-- `IncrementDelta` -/
  | incrementDelta (p : Ptr) (i : Int) (x : F)
  /-- `ComputeExtaStatsForSoftMax` -/
  | softmax (p : Ptr) (norm : F) (i : Int) (labels : List Int)
  /-- `BackPropagate` -/
  | backProp (p : Ptr) (prev : Slice) (pairs : List (Pair F)) (lr : F) (i : Int)
  /-- `BackPropagateFirstLayer` -/
  | backPropFirst (p : Ptr) (pairs : List (Pair F)) (lr : F) (i : Int)
  /-- `SetlastActivation` -/
  | setLast (p : Ptr) (i : Int) (x : F)
  /-- `PurturbWeight` -/
  | purturb (p : Ptr) (i : Int) (x : F)

/-- Forget the result. -/
def ignore {α : Type} (x : NM F α) : NM F Unit := do
  let _ ← x
  pure ()

/-- The effect of a call for `c`. -/
def Call.run (cfg : Configuration.Config F) (c : Int) : Call F → NM F Unit
  | new dim id ty batch w bias m v => ignore (newNode cfg c dim id ty batch w bias m v)
  | newEmpty => ignore (newEmptyNode c)
  | makeVec l => ignore (allocFloats l)
  | makeNodes l => ignore (allocNodeArr l)
  | poke s i x => ignore (setFloat s i x)
  | setT p i x => ignore (Goslide.Node.setT p c i x)
  | setMom p i x => ignore (setAdamAvgMom p c i x)
  | setVel p i x => ignore (setAdamAvgVel p c i x)
  | setMomBias p x => ignore (setAdamAvgMomBias p c x)
  | setVelBias p x => ignore (setAdamAvgVelBias p c x)
  | setBias p x => ignore (Goslide.Node.setBias p c x)
  | setTBias p x => ignore (Goslide.Node.setTBias p c x)
  | copyMirror p => ignore (copyWeightsAndBiasFromMirror p c)
  | getActivation p data i => ignore (Goslide.Node.getActivation p c data i)
  | incrementDelta p i x => ignore (Goslide.Node.incrementDelta p c i x)
  | softmax p norm i labels => ignore (computeExtaStatsForSoftMax p c norm i labels)
  | backProp p prev pairs lr i => ignore (backPropagate cfg p c prev pairs lr i)
  | backPropFirst p pairs lr i => ignore (backPropagateFirstLayer cfg p c pairs lr i)
  | setLast p i x => ignore (setlastActivation p c i x)
  | purturb p i x => ignore (purturbWeight p c i x)

/-- A history: calls, each with its cowId. -/
def runAll (cfg : Configuration.Config F) : List (Int × Call F) → NM F Unit
  | [] => pure ()
  | (c, x) :: l => do
    x.run cfg c
    runAll cfg l

end Goslide.Spec.Node

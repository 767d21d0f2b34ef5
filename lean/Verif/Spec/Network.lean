import Verif.Spec.Node
import Verif.Model.Network
import Verif.Spec.Argmax
/-
Layers and networks in memory with their content, and a reference semantics without memory: functions on the
observations of the nodes.
-/
namespace Goslide.Node
open Goslide.Spec.Node
variable {F : Type} [GoFloat F]

/-- The nodes `Z` share nothing and have these observations. -/
def GroupZ (h : Heap F) (Z : List (Ptr × View F)) : Prop := Group h (Z.map Prod.fst) (Z.map Prod.snd)

/-- All nodes of the list belong to `c`. -/
def OwnedZ (h : Heap F) (Z : List (Ptr × View F)) (c : Int) : Prop := AllOwned h (Z.map Prod.fst) c

end Goslide.Node

namespace Goslide.Layer
variable {F : Type} [GoFloat F]

/-- The array of random nodes of a layer. -/
def OrderAt (w : World F) (x : Layer) (order : List Int) : Prop :=
  w.ints[x.randNode.arr]? = some order ∧ x.randNode.off = 0 ∧ x.randNode.len = order.length

/-- A layer with all that is stored for it: its nodes (pointers and observations), the order of random nodes, the
normalization constants, the hash tables. -/
structure State (F : Type) where
  ptr : Ptr
  obj : Layer
  nodes : List (Ptr × Spec.Node.View F)
  order : List Int
  norm : List F
  tables : Lsh.LSH

/-- The observations of the nodes. -/
def State.views (g : State F) : List (Spec.Node.View F) := g.nodes.map Prod.snd

/-- The layer applies the softmax function. -/
def State.softmax (g : State F) : Bool := g.obj.nodeType = Node.Softmax

/-- The memory contains the layer `g`. -/
structure Stored (w : World F) (g : State F) : Prop where
  obj : w.layers[g.ptr]? = some g.obj
  nodes : readSlice w.heap.nodeArrs g.obj.nodes = some (g.nodes.map Prod.fst)
  order : OrderAt w g.obj g.order
  norm : readSlice w.consts g.obj.normalizationConstants = some g.norm
  tables : w.lshs[g.obj.hashTables]? = some g.tables

/-- Two layers that share nothing outside their nodes. -/
structure Apart (a b : State F) : Prop where
  ptr : a.ptr ≠ b.ptr
  nodes : a.obj.nodes.Disjoint b.obj.nodes
  order : a.obj.randNode.arr ≠ b.obj.randNode.arr
  norm : a.obj.normalizationConstants.Disjoint b.obj.normalizationConstants
  tables : a.obj.hashTables ≠ b.obj.hashTables

end Goslide.Layer

namespace Goslide.Network
open Goslide.Layer Goslide.Node
variable {F : Type} [GoFloat F]

/-- The slice `hidden` holds the layers `Q`, which share nothing. -/
structure Layers (w : World F) (hidden : Slice) (Q : List (State F)) : Prop where
  ptrs : readSlice w.layerArrs hidden = some (Q.map State.ptr)
  stored : ∀ g ∈ Q, Stored w g
  group : GroupZ w.heap (Q.flatMap State.nodes)
  apart : Q.Pairwise (fun a b => Apart a b ∧ Apart b a)

/-- The network `p` is the object `n` with the layers `Q`. -/
structure NetAt (w : World F) (p : Ptr) (n : Network F) (Q : List (State F)) : Prop where
  obj : w.networks[p]? = some n
  layers : Layers w n.hiddenLayers Q
  count : n.numberOfLayers = Q.length

/-- `c` owns the layers and all their nodes. -/
def OwnedBy (w : World F) (Q : List (State F)) (c : Int) : Prop :=
  OwnedZ w.heap (Q.flatMap State.nodes) c ∧ ∀ g ∈ Q, g.obj.cowId = c

end Goslide.Network

namespace Goslide.Spec.Network
open Goslide.Node Goslide.Spec.Node
variable {F : Type} [GoFloat F]

/-- `f` applied to the listed nodes. -/
def mark (ids : List Int) (f : View F → View F) (vs : List (View F)) : List (View F) :=
  vs.mapIdx (fun k v => if (k : Int) ∈ ids then f v else v)

/-- The activation of node `id` on the input `data`. -/
def valueOf (vs : List (View F)) (data : List (Pair F)) (id : Int) : F :=
  match vs[id.toNat]? with
  | some v => activation v.params data
  | none => GoFloat.zero

/-- The maximum of 0 and the activations of the listed nodes. -/
def maxValue (vs : List (View F)) (data : List (Pair F)) (ids : List Int) : F :=
  ids.foldl (fun m id => if GoFloat.lt m (valueOf vs data id) then valueOf vs data id else m) GoFloat.zero

/-- The output of a listed node. -/
def outputOf (softmax : Bool) (vs : List (View F)) (data : List (Pair F)) (ids : List Int) (id : Int) : F :=
  if softmax then GoFloat.exp (GoFloat.sub (valueOf vs data id) (maxValue vs data ids)) else valueOf vs data id

/-- The output of a layer with the active nodes `ids`. -/
def outputs (softmax : Bool) (vs : List (View F)) (data : List (Pair F)) (ids : List Int) : List (Pair F) :=
  ids.map (fun id => { Index := id, Value := outputOf softmax vs data ids id })

/-- The sum of values, from the left. -/
def sum (l : List F) : F := l.foldl GoFloat.add GoFloat.zero

/-- The training state of an active node after the forward pass of input `i`. -/
def fired (softmax : Bool) (i : Nat) (data : List (Pair F)) (m : F) (v : View F) : View F :=
  v.setSlot i (fun s => {
    active := true
    act := if softmax then GoFloat.exp (GoFloat.sub (activation v.params data) m) else activation v.params data
    delta := if Clamped v.params data then GoFloat.zero else s.delta })

/-- The nodes of a layer after the forward pass of input `i`. -/
def forwardViews (softmax : Bool) (i : Nat) (vs : List (View F)) (data : List (Pair F)) (ids : List Int) : List (View F) :=
  mark ids (fired softmax i data (maxValue vs data ids)) vs

/-- What the forward pass needs: the listed nodes exist and can process `data` as input `i`. -/
def CanFire (i : Nat) (vs : List (View F)) (data : List (Pair F)) (ids : List Int) : Prop :=
  ∀ id ∈ ids, 0 ≤ id ∧ ∃ v, vs[id.toNat]? = some v ∧ (i : Int) < v.params.batch ∧ InRange v.params data ∧
    (v.params.nodeType = 0 ∨ v.params.nodeType = 1)

/-- The outputs of all layers, given as (softmax, nodes), when the nodes `S` are active. -/
def evaluate : List (Bool × List (View F)) → List (Pair F) → List (List Int) → List (List (Pair F))
  | (b, vs) :: L, data, ids :: S => outputs b vs data ids :: evaluate L (outputs b vs data ids) S
  | _, _, _ => []

open Goslide.Layer in
/-- The layer `g'` is `g` after the forward pass of input `i` for `c` with the active nodes `ids`. -/
structure Forwarded (c : Int) (i : Nat) (data : List (Pair F)) (ids : List Int) (g g' : State F) : Prop where
  can : CanFire i g.views data ids
  obj : g'.obj = { g.obj with cowId := c }
  views : g'.views = forwardViews g.softmax i g.views data ids
  order : g'.order = g.order
  norm : g'.norm = if g.softmax then g.norm.set i (sum ((outputs g.softmax g.views data ids).map Pair.Value)) else g.norm
  fits : g.softmax = true → i < g.norm.length
  tables : g'.tables = g.tables

open Goslide.Layer Goslide.Xcrepo

/-- What `evaluate` needs of a layer. -/
def _root_.Goslide.Layer.State.shape (g : State F) : Bool × List (View F) := (g.softmax, g.views)

/-- The outputs of the layers. -/
def outs (Q : List (State F)) (data : List (Pair F)) (S : List (List Int)) : List (List (Pair F)) := evaluate (Q.map State.shape) data S

/-- No node of the layer has a delta. -/
def Still (vs : List (View F)) : Prop := ∀ v ∈ vs, ∀ s ∈ v.train, s.delta = GoFloat.zero

/-- Layers with the same structure and parameters: what a forward pass for `c` keeps. -/
structure SameParams (c : Int) (g g' : State F) : Prop where
  obj : g'.obj = { g.obj with cowId := c } ∨ g' = g
  params : g'.views.map View.params = g.views.map View.params
  order : g'.order = g.order
  tables : g'.tables = g.tables
  norm : g'.norm.length = g.norm.length
  trains : g'.views.map (fun v => v.train.length) = g.views.map (fun v => v.train.length)
  still : Still g.views → Still g'.views

/-- Lists of layers with the same structure and parameters. -/
def SameAll (c : Int) (Q Q' : List (State F)) : Prop :=
  Q'.length = Q.length ∧ ∀ (k : Nat) (g g' : State F), Q[k]? = some g → Q'[k]? = some g' → SameParams c g g'

/-- The predicted class for a list of outputs: 0 without outputs, otherwise the index of the first largest one (of the
first one if that is NaN; later NaN are ignored). -/
def Classified [FloatOrder F] (l : List (Pair F)) (cls : Int) : Prop :=
  match l with
  | [] => cls = 0
  | first :: _ =>
    if FloatOrder.isNaN first.Value = true then cls = first.Index
    else ∃ pair, FloatOrder.isNaN pair.Value = false ∧ Spec.IsFirstArgmax FloatOrder.isNaN GoFloat.lt Pair.Value l pair ∧
      cls = pair.Index

/-- The number of examples whose class is among their labels. -/
def correct : List (Example F) → List Int → Int
  | ex :: es, cls :: rest => (if cls ∈ ex.Labels then 1 else 0) + correct es rest
  | _, _ => 0

/-- The ids of the active nodes `S` of the layers `Q`: they exist, and they are all nodes where the sparsity is 1. -/
def ActiveOn (sparsity : List F) (off : Nat) (Q : List (State F)) (S : List (List Int)) : Prop :=
  S.length = Q.length ∧ ∀ (j : Nat) (g : State F) (ids : List Int), Q[j]? = some g → S[j]? = some ids →
    (∀ id ∈ ids, 0 ≤ id ∧ id < g.nodes.length) ∧
    ∃ sp, sparsity[off + j]? = some sp ∧
      (GoFloat.eq sp GoFloat.one = true → ids = (List.range g.nodes.length).map (fun (k : Nat) => (k : Int)))

/-- The output of all layers when all nodes are active. -/
def dense : List (Bool × List (View F)) → List (Pair F) → List (Pair F)
  | [], data => data
  | (b, vs) :: L, data => dense L (outputs b vs data ((List.range vs.length).map (fun (k : Nat) => (k : Int))))

end Goslide.Spec.Network

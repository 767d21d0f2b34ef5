import Verif.Spec.Node
import Verif.Spec.Bucket
import Verif.Model.Layer
/-
Uses of single nodes of a layer.
-/
namespace Goslide.Spec.Node
open Goslide.Node
variable {F : Type} [GoFloat F]

/-- The node a call is made on, for the calls that concern one node only (back-propagation is left out: its
purpose is to change the previous nodes too). -/
def Call.target : Call F → Option Ptr
  | .setT p _ _ => some p
  | .setMom p _ _ => some p
  | .setVel p _ _ => some p
  | .setMomBias p _ => some p
  | .setVelBias p _ => some p
  | .setBias p _ => some p
  | .setTBias p _ => some p
  | .copyMirror p => some p
  | .getActivation p _ _ => some p
  | .incrementDelta p _ _ => some p
  | .softmax p _ _ _ => some p
  | .setLast p _ _ => some p
  | .purturb p _ _ => some p
  | _ => none

/-- A use of one node: a call, or an assignment to an element of the slice that `Weights` returns (as in
network/network.go:278). -/
inductive Use (F : Type) where
  | call (x : Call F)
  | weight (p : Ptr) (i : Int) (x : F)

/-- The node that is used. -/
def Use.target : Use F → Option Ptr
  | .call x => x.target
  | .weight p _ _ => some p

/-- The effect for `c`. -/
def Use.run (cfg : Configuration.Config F) (c : Int) : Use F → NM F Unit
  | .call x => x.run cfg c
  | .weight p i x => do
    let s ← Goslide.Node.weights p
    setFloat s i x

/-- Several uses by `c`. -/
def useAll (cfg : Configuration.Config F) (c : Int) : List (Use F) → NM F Unit
  | [] => pure ()
  | x :: l => do
    x.run cfg c
    useAll cfg c l

end Goslide.Spec.Node

namespace Goslide.Spec.Layer
open Goslide.Layer Goslide.Node Goslide.Lsh
variable {F : Type} [GoFloat F]

/-- The indices (one per table) that belong to the present weights of the node `q`, with the hasher `hasher` and
the multipliers of the tables `s`. -/
def nodeIndex (cfg : Configuration.Config F) (hasher : Hasher) (s : LSH) (q : Ptr) : NM F (List Int) := do
  let ws ← Goslide.Node.weights q
  let v ← floatsOf ws
  let spare ← spareOf ws
  let hashes ← M.lift (hashDense cfg hasher v spare)
  M.lift (hashesToIndex (hashFunctionOf cfg.HashFunction) s hashes)

/-- The ids of the nodes with index `i` in table `t`, in increasing order, if `I j` are the indices of node `j`. -/
def sameCell (n : Nat) (I : Nat → List Int) (t : Nat) (i : Int) : List Int :=
  ((List.range n).filter (fun j => (I j)[t]? == some i)).map (fun (j : Nat) => (j : Int))

/-- The `l` tables of `2 ^ rp` cells hold exactly the nodes `0, …, n-1`, where `I j` are the indices of node `j`: at index `i` of table
`t` are the newest 128 of the nodes with this index; so node `j` is in all tables at its own indices, unless 128 later
nodes fell in the same cell. -/
structure TablesHold (s : LSH) (l rp n : Nat) (I : Nat → List Int) : Prop where
  content : ∀ indices : List Int, (∀ t : Nat, t < l → ∃ v : Int, indices[t]? = some v ∧ 0 ≤ v ∧ v < ((2 ^ rp : Nat) : Int)) →
    ∃ raw, retrieveRaw s indices = .ok raw ∧ raw.length = l ∧ ∀ (t : Nat) (i : Int), t < l → indices[t]? = some i →
      ∃ xs, raw[t]? = some xs ∧ xs.Perm (newest128 (sameCell n I t i))
  found : ∀ j, j < n → ∃ raw, retrieveRaw s (I j) = .ok raw ∧ raw.length = l ∧
    ∀ t : Nat, t < l → ∃ xs i, raw[t]? = some xs ∧ (I j)[t]? = some i ∧
      ((j : Int) ∈ xs ∨ 128 ≤ ((sameCell n I t i).filter (fun id => (j : Int) < id)).length)

/-- The tables of the layer `q` hold its nodes where the layer's present hash function puts their present weights. -/
def Consistent (cfg : Configuration.Config F) (w : World F) (q : Ptr) (size l rp : Int) : Prop :=
  ∃ x s L I, w.layers[q]? = some x ∧ w.lshs[x.hashTables]? = some s ∧ readSlice w.heap.nodeArrs x.nodes = some L ∧ (L.length : Int) = size ∧
    (∀ j r, L[j]? = some r → nodeIndex cfg x.hasher s r w.heap = .ok (I j, w.heap)) ∧ TablesHold s l.toNat rp.toNat L.length I

end Goslide.Spec.Layer

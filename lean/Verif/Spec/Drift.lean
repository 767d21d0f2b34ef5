import Verif.Model.Node
import Verif.Spec.Node
/-
The training of one node of the first layer, seen from the node.
-/
namespace Goslide.Spec.Node
open Goslide Goslide.Node
variable {F : Type} [GoFloat F]

/-- One example for a node: its place in the batch, its features and the deltas that the nodes of the next layer send back. -/
structure Round (F : Type) where
  i : Nat
  data : List (Pair F)
  pulls : List F

/-- The calls of `IncrementDelta` by the next layer. -/
def pullAll (c : Int) (i : Nat) : List F → Ptr → NM F Ptr
  | [], p => pure p
  | x :: xs, p => do
    let p ← incrementDelta p c i x
    pullAll c i xs p

/-- The calls for one example: forward, deltas, back. -/
def Round.run (cfg : Configuration.Config F) (c : Int) (lr : F) (r : Round F) (p : Ptr) : NM F Ptr := do
  let (_, p) ← getActivation p c r.data r.i
  let p ← pullAll c r.i r.pulls p
  backPropagateFirstLayer cfg p c r.data lr r.i

/-- The examples of a batch. -/
def runRounds (cfg : Configuration.Config F) (c : Int) (lr : F) : List (Round F) → Ptr → NM F Ptr
  | [], p => pure p
  | r :: rs, p => do
    let p ← r.run cfg c lr p
    runRounds cfg c lr rs p

/-- Batches, each finished as in network/network.go:290 (without Adam). -/
def runBatches (cfg : Configuration.Config F) (c : Int) (lr : F) : List (List (Round F)) → Ptr → NM F Ptr
  | [], p => pure p
  | b :: bs, p => do
    let p ← runRounds cfg c lr b p
    let p ← copyWeightsAndBiasFromMirror p c
    runBatches cfg c lr bs p

/-! What is expected, on plain lists (exact arithmetic). -/

/-- The delta of an example: what the next layer sends, or zero if `bias + Σ weight*value` is not positive. -/
def Round.delta (r : Round Rat) (w : List Rat) (b : Rat) : Rat :=
  if b + (r.data.map (fun x => w[x.Index.toNat]?.getD 0 * x.Value)).sum ≤ 0 then 0 else r.pulls.sum

/-- The weights after an example with delta `d`: each feature moves its weight by `lr * (d * value)`. -/
def moved (lr d : Rat) : List (Pair Rat) → List Rat → List Rat
  | [], w => w
  | x :: l, w => moved lr d l (w.modify x.Index.toNat (· + lr * (d * x.Value)))

/-- The deltas of the examples of a batch and the weights after it: weights move at once, the bias stays. -/
def batchDeltas (lr b : Rat) : List (Round Rat) → List Rat → List Rat × List Rat
  | [], w => ([], w)
  | r :: rs, w =>
    let t := batchDeltas lr b rs (moved lr (r.delta w b) r.data w)
    (r.delta w b :: t.1, t.2)

/-- The same for batches, with the bias `b` in the first of them. -/
def deltas (lr : Rat) : List (List (Round Rat)) → List Rat → Rat → List Rat × List Rat
  | [], w, _ => ([], w)
  | B :: bs, w, b =>
    let t := batchDeltas lr b B w
    let u := deltas lr bs t.2 (b + (B.length * lr + t.1.sum))
    (t.1 ++ u.1, u.2)

/-- The example fits the node. -/
def Round.Fits (P : Params F) (r : Round F) : Prop := (r.i : Int) < P.batch ∧ InRange P r.data

end Goslide.Spec.Node

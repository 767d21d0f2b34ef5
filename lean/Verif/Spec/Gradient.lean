import Verif.Spec.Train
/-
What back-propagation computes, without the training states of the nodes: the deltas of the layers, from the last one to
the first one, and the gradients.
-/
namespace Goslide.Spec.Network
open Goslide.Node Goslide.Spec.Node
variable {F : Type} [GoFloat F]

/-- The delta of an active node of the last layer with parameters `P`; `e` is its unnormalized output, `norm` the sum of all.
This is what the code computes (node/node.go:312-323); C72 says of which function it is the derivative. -/
def outDelta (P : Params F) (labels : List Int) (norm e : F) : F :=
  let p := GoFloat.div e (GoFloat.add norm (GoFloat.const (1 / 10000000)))
  if P.id ∈ labels then GoFloat.sub (GoFloat.div GoFloat.one (GoFloat.ofInt labels.length)) (GoFloat.div p (GoFloat.ofInt P.batch))
  else GoFloat.div (GoFloat.neg p) (GoFloat.ofInt P.batch)

/-- The weight of node `k` for input `q`. -/
def weightOf (vs : List (View F)) (k q : Nat) : F :=
  match vs[k]? with
  | none => GoFloat.zero
  | some v => (v.params.weights[q]?).getD GoFloat.zero

/-- The value listed for node `q`. -/
def valueAt (out : List (Pair F)) (q : Nat) : F :=
  match out.find? (fun x => x.Index.toNat = q) with
  | none => GoFloat.zero
  | some x => x.Value

/-- The delta of a node with activation `act` that is input `q` of the next layer `us`, whose active nodes `out` have the deltas `D`. -/
def pulled (us : List (View F)) (out : List (Pair F)) (D : Nat → F) (act : F) (q : Nat) : F :=
  if GoFloat.le act GoFloat.zero then GoFloat.zero
  else out.foldl (fun acc x => GoFloat.add acc (GoFloat.mul (D x.Index.toNat) (weightOf us x.Index.toNat q))) GoFloat.zero

/-- The deltas of the active nodes, one function per layer, for layers with their outputs. -/
def deltas (labels : List Int) (norm : F) : List (List (View F) × List (Pair F)) → List (Nat → F)
  | [] => []
  | [(vs, out)] => [fun k => match vs[k]? with
      | none => GoFloat.zero
      | some v => outDelta v.params labels norm (valueAt out k)]
  | (_, out) :: (us, out') :: rest =>
    let r := deltas labels norm ((us, out') :: rest)
    (fun q => pulled us out' ((r.head?).getD (fun _ => GoFloat.zero)) (valueAt out q) q) :: r

/-- The gradients of the weights for the inputs `data` and the delta `d` added to the accumulators `t`. -/
def addGrads (d : F) (data : List (Pair F)) (t : List F) : List F :=
  data.foldl (fun t x => t.modify x.Index.toNat (fun y => GoFloat.add y (GoFloat.mul d x.Value))) t

/-- An active node with delta `d` after both passes of input `i`: the gradients are accumulated, the training state is reset. -/
def accView (i : Nat) (data : List (Pair F)) (d : F) (v : View F) : View F where
  params := { v.params with t := addGrads d data v.params.t, tBias := GoFloat.add v.params.tBias d }
  train := v.train.set i idle

/-- A layer with the active nodes `ids` and the deltas `D` after both passes of input `i`. -/
def accumulate (i : Nat) (data : List (Pair F)) (ids : List Int) (D : Nat → F) (vs : List (View F)) : List (View F) :=
  vs.mapIdx (fun k v => if (k : Int) ∈ ids then accView i data (D k) v else v)

/-- All layers after both passes of input `i`. -/
def accumulateAll (i : Nat) : List (Bool × List (View F)) → List (Pair F) → List (List Int) → List (Nat → F) → List (List (View F))
  | (b, vs) :: L, data, ids :: S, D :: Ds => accumulate i data ids D vs :: accumulateAll i L (outputs b vs data ids) S Ds
  | _, _, _, _ => []

/-- The active nodes `ids` of a layer are distinct nodes with a training state for input `i`, whose delta is 0 -/
structure Rested (i : Nat) (ids : List Int) (vs : List (View F)) : Prop where
  nodup : ids.Nodup
  slot : ∀ id ∈ ids, 0 ≤ id ∧ ∃ v s, vs[id.toNat]? = some v ∧ v.train[i]? = some s ∧ s.delta = GoFloat.zero

end Goslide.Spec.Network

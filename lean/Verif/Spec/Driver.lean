import Verif.Model.Driver
import Verif.Spec.Xcrepo
/-
Specification for the driver: how a file is cut into batches, when the maintenance flags are due, and a
network that only records the calls it gets.
-/
namespace Goslide.Spec
open Configuration Xcrepo Driver
variable {F P H : Type} [GoFloat F]

/-- Batch number `i` of a list of examples cut into batches of `b`. -/
def batch (es : List (Example F)) (b i : Nat) : List (Example F) := (es.drop (i * b)).take b

/-- A maintenance step with period `every` records is due at global iteration `t` (counted from 0):
the layer mode uses hash tables, and `t + 1` is a multiple of `every / batchSize`, which is positive. -/
def Due (cfg : Config F) (every : Int) (t : Nat) : Prop :=
  (cfg.LayerMode = 1 ∨ cfg.LayerMode = 4) ∧ 0 < every ∧ (every / cfg.BatchSize) ∣ ((t : Int) + 1)

instance (cfg : Config F) (every : Int) (t : Nat) : Decidable (Due cfg every t) :=
  inferInstanceAs (Decidable (_ ∧ _ ∧ _))

/-- The periods do not make the driver panic: in modes 1 and 4 they are at least one batch long (in
absolute value). -/
def PeriodsOk (cfg : Config F) : Prop :=
  (cfg.LayerMode = 1 ∨ cfg.LayerMode = 4) → cfg.BatchSize ≤ cfg.Rehash.natAbs ∧ cfg.BatchSize ≤ cfg.Rebuild.natAbs

/-- The file at `path` is readable, has a good header, and holds exactly the examples `es`: the scanner
delivers them in this order and then stops without an error. -/
def HoldsExamples (parseFloat : Bytes → Option F) (files : Bytes → Option Bytes) (path : Bytes)
    (es : List (Example F)) : Prop :=
  ∃ content s s', files path = some content ∧ (newScanner content : Scanner F).Err = none ∧
    Delivers (scan parseFloat) (·.ex) (newScanner content) es s ∧ scan parseFloat s = (false, s') ∧ s'.Err = none

/-- The file at `path` delivers `es` and then fails with a parse error. -/
def FailsAfter (parseFloat : Bytes → Option F) (files : Bytes → Option Bytes) (path : Bytes)
    (es : List (Example F)) : Prop :=
  ∃ content s s', files path = some content ∧ (newScanner content : Scanner F).Err = none ∧
    Delivers (scan parseFloat) (·.ex) (newScanner content) es s ∧ scan parseFloat s = (false, s') ∧ s'.Err ≠ none

/-- One call of `ProcessInput`. -/
structure Call (F : Type) where
  examples : List (Example F)
  iter : Int
  rehash : Bool
  rebuild : Bool
deriving DecidableEq, Repr

/-- A network that records its training calls and predicts nothing right. -/
def recorder : NetApi F Unit (List (Call F)) where
  processInput _ es iter rehash rebuild h := .ok ((), h ++ [⟨es, iter, rehash, rebuild⟩])
  predictClass _ _ h := .ok (0, (), h)

/-- The evaluation before the training call of batch `i`: every `Stepsize` global iterations, but not at
the start of an epoch. -/
def evalStep (api : NetApi F P H) (parseFloat : Bytes → Option F) (files : Bytes → Option Bytes)
    (cfg : Config F) (i t : Nat) (p : P) (st : State F H) : Go (State F H) :=
  if i = 0 then .ok st
  else if cfg.Stepsize = 0 then .error .divZero
  else if cfg.Stepsize ∣ (t : Int) then evaluateSvm api parseFloat files cfg 20 p t st
  else .ok st

/-- What one iteration of a training epoch must do: possibly an evaluation, then one training call on
batch `i` of the file. -/
def trainStep (api : NetApi F P H) (parseFloat : Bytes → Option F) (files : Bytes → Option Bytes)
    (cfg : Config F) (es : List (Example F)) (numBatches epoch : Nat) (ps : P × State F H) (i : Nat) :
    Go (P × State F H) := do
  let t := epoch * numBatches + i
  let st ← evalStep api parseFloat files cfg i t ps.1 ps.2
  let (p, heap) ← api.processInput ps.1 (batch es cfg.BatchSize.toNat i) t
    (decide (Due cfg cfg.Rehash t)) (decide (Due cfg cfg.Rebuild t)) st.heap
  .ok (p, { st with heap := heap })

/-- What one iteration of an evaluation must do: predict batch `i` of the file, add the number of correct
predictions to the running total and print it as a proportion of the `(i + 1) * BatchSize` records. -/
def evalBatch (api : NetApi F P H) (cfg : Config F) (es : List (Example F))
    (x : Int × P × State F H) (i : Nat) : Go (Int × P × State F H) := do
  let b := batch es cfg.BatchSize.toNat i
  let (c, p, heap) ← api.predictClass x.2.1 b x.2.2.heap
  let total := x.1 + c
  .ok (total, p, { heap := heap, log := x.2.2.log ++
    [.records cfg.BatchSize (b.map (fun e => (e.Features.length : Int))).sum (b.map (fun e => (e.Labels.length : Int))).sum,
     .iter i (GoFloat.div (GoFloat.ofInt total)
       (GoFloat.mul (GoFloat.ofInt cfg.BatchSize) (GoFloat.add (GoFloat.ofInt i) GoFloat.one)))] })

/-- A network whose predictions are counts: between 0 and the number of examples. -/
def CountsCorrectly (api : NetApi F P H) : Prop :=
  ∀ p es h c p' h', api.predictClass p es h = .ok (c, p', h') → 0 ≤ c ∧ c ≤ es.length

/-- An accuracy line of an evaluation over `numBatches` batches shows a proportion: a count that is at least
0 and at most the number of records it is divided by. -/
def IsProportion (batchSize numBatches : Int) : Line F → Prop
  | .iter i a => ∃ c : Int, 0 ≤ c ∧ c ≤ batchSize * (i + 1) ∧
      a = GoFloat.div (GoFloat.ofInt c) (GoFloat.mul (GoFloat.ofInt batchSize) (GoFloat.add (GoFloat.ofInt i) GoFloat.one))
  | .overall a => ∃ c : Int, 0 ≤ c ∧ c ≤ numBatches * batchSize ∧
      a = GoFloat.div (GoFloat.ofInt c) (GoFloat.mul (GoFloat.ofInt numBatches) (GoFloat.ofInt batchSize))
  | .summary _ a => ∃ c : Int, 0 ≤ c ∧ c ≤ numBatches * batchSize ∧
      a = GoFloat.div (GoFloat.ofInt c) (GoFloat.mul (GoFloat.ofInt numBatches) (GoFloat.ofInt batchSize))
  | _ => True

end Goslide.Spec

import Verif.Spec.Driver
import Verif.Spec.New
/-
Specification of the whole program: the calls that a run of goslide.go makes on its network.
-/
namespace Goslide.Spec
open Configuration Xcrepo Spec.Network
variable {F : Type} [GoFloat F]

/-- The arguments of `network.New` that a configuration stands for: all layers but the last are ReLU layers. -/
def argsOf (cfg : Config F) : NetArgs F where
  layers := cfg.NumLayer
  sizes := cfg.SizesOfLayers
  types := List.replicate (cfg.NumLayer.toNat - 1) Node.ReLU ++ [Node.Softmax]
  batch := cfg.BatchSize
  rate := cfg.LearningRate
  dim := cfg.InputDim
  k := cfg.K
  l := cfg.L
  rangePow := cfg.RangePow
  sparsity := cfg.Sparsity

/-- An evaluation over `n` batches of the test examples. -/
def predictions (cfg : Config F) (esTest : List (Example F)) (n : Nat) : List (NetCall F) :=
  (List.range n).map (fun i => .predict (batch esTest cfg.BatchSize.toNat i))

/-- Training batch `i` of epoch `e`, after an evaluation over 20 batches if one is due, with `nb` batches per epoch. -/
def trainCalls (cfg : Config F) (es esTest : List (Example F)) (nb e i : Nat) : List (NetCall F) :=
  (if i ≠ 0 ∧ cfg.Stepsize ∣ ((e * nb + i : Nat) : Int) then predictions cfg esTest 20 else []) ++
    [.train (batch es cfg.BatchSize.toNat i) (e * nb + i : Nat) (decide (Due cfg cfg.Rehash (e * nb + i))) (decide (Due cfg cfg.Rebuild (e * nb + i)))]

/-- Epoch `e`: the training batches, then an evaluation over 50 batches, or in the last epoch over the whole test set. -/
def epochCalls (cfg : Config F) (es esTest : List (Example F)) (nb nbTest e : Nat) : List (NetCall F) :=
  (List.range nb).flatMap (trainCalls cfg es esTest nb e) ++ predictions cfg esTest (if (e : Int) = cfg.Epoch - 1 then nbTest else 50)

/-- All calls of a run, in order. -/
def schedule (cfg : Config F) (es esTest : List (Example F)) : List (NetCall F) :=
  (List.range cfg.Epoch.toNat).flatMap
    (epochCalls cfg es esTest (cfg.TotRecords / cfg.BatchSize).toNat (cfg.TotRecordsTest / cfg.BatchSize).toNat)

/-- What is printed in blocks: the line at the start of an epoch, and the lines of an evaluation over `n` batches at iteration `t`. -/
inductive Block where
  | epoch (e : Int)
  | eval (n : Nat) (t : Int)
deriving Repr, DecidableEq

/-- The blocks of epoch `e`. -/
def epochBlocks (cfg : Config F) (nb nbTest e : Nat) : List Block :=
  .epoch e :: (List.range nb).flatMap (fun i => if i ≠ 0 ∧ cfg.Stepsize ∣ ((e * nb + i : Nat) : Int) then [.eval 20 (e * nb + i : Nat)] else []) ++
    [.eval (if (e : Int) = cfg.Epoch - 1 then nbTest else 50) (((e : Int) + 1) * nb)]

/-- All blocks of a run, in order. -/
def blocks (cfg : Config F) : List Block :=
  (List.range cfg.Epoch.toNat).flatMap (epochBlocks cfg (cfg.TotRecords / cfg.BatchSize).toNat (cfg.TotRecordsTest / cfg.BatchSize).toNat)

/-- The lines for the batches `i`, `i + 1`, … of an evaluation, when `total` examples were right before and then `c` of the next batch, and so on:
the size of the batch, then the proportion so far. -/
def batchLines (cfg : Config F) (esTest : List (Example F)) : (i : Nat) → (total : Int) → List Int → List (Driver.Line F)
  | _, _, [] => []
  | i, total, c :: cs =>
    .records cfg.BatchSize ((batch esTest cfg.BatchSize.toNat i).map (fun e => (e.Features.length : Int))).sum
      ((batch esTest cfg.BatchSize.toNat i).map (fun e => (e.Labels.length : Int))).sum ::
    .iter i (GoFloat.div (GoFloat.ofInt (total + c)) (GoFloat.mul (GoFloat.ofInt cfg.BatchSize) (GoFloat.add (GoFloat.ofInt i) GoFloat.one))) ::
    batchLines cfg esTest (i + 1) (total + c) cs

/-- The proportion of correct predictions of a whole evaluation. -/
def accuracy (cfg : Config F) (n : Nat) (total : Int) : F :=
  GoFloat.div (GoFloat.ofInt total) (GoFloat.mul (GoFloat.ofInt n) (GoFloat.ofInt cfg.BatchSize))

/-- The log of a run, as a function of the numbers of correct predictions that the calls return one after the other. -/
def logOf (cfg : Config F) (esTest : List (Example F)) : List Block → List Int → List (Driver.Line F)
  | [], _ => []
  | .epoch e :: bs, cs => .epoch e :: logOf cfg esTest bs cs
  | .eval n t :: bs, cs =>
    batchLines cfg esTest 0 0 (cs.take n) ++ [.overall (accuracy cfg n (cs.take n).sum), .summary t (accuracy cfg n (cs.take n).sum)] ++
      logOf cfg esTest bs (cs.drop n)

/-- The number of counts that the blocks show: one for each batch of each evaluation. -/
def need : List Block → Nat
  | [] => 0
  | .epoch _ :: bs => need bs
  | .eval n _ :: bs => n + need bs

/-- The numbers of correct predictions that the calls return. -/
def countsOf (cfg : Config F) (fuel : Nat) (c : Int) : List (NetCall F) → Ptr → Layer.World F → List Int
  | [], _, _ => []
  | .train es iter rehash rebuild :: calls, p, w =>
    match Network.processInput cfg fuel p c es iter rehash rebuild w with
    | .ok ((_, p'), w') => countsOf cfg fuel c calls p' w'
    | .error _ => []
  | .predict es :: calls, p, w =>
    match Network.predictClass cfg fuel p c es w with
    | .ok ((m, p'), w') => m :: countsOf cfg fuel c calls p' w'
    | .error _ => []

/-- The examples of a prediction call. -/
def predicted : NetCall F → Option (List (Example F))
  | .predict es => some es
  | .train _ _ _ _ => none

/-- The numbers in the configuration do not make the driver itself panic. -/
structure DriverOk (cfg : Config F) : Prop where
  batch : 0 < cfg.BatchSize
  periods : PeriodsOk cfg
  step : cfg.Stepsize ≠ 0
  records : 0 ≤ cfg.TotRecords
  recordsTest : 0 ≤ cfg.TotRecordsTest
  layers : 1 ≤ cfg.NumLayer

end Goslide.Spec

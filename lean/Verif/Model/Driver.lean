import Verif.Model.Xcrepo
import Verif.Model.Configuration
/-
Model of goslide.go (the training and evaluation driver).

The network is an arbitrary implementation of the two methods the driver calls (`NetApi`): `P` are the
network pointers and `H` the memory they point to, so the theorems hold for every network, in particular
for the model of network/network.go. `int` overflow, profiling, timing and the wording of the log are not
modelled. The slice `examples` (goslide.go:126, 182) is reused between batches; its content is passed.
-/
namespace Goslide.Driver
open Configuration Xcrepo
variable {F P H : Type} [GoFloat F]

/-- The methods of `*network.Network` called by goslide.go (with cowId 0): `ProcessInput`
(goslide.go:158-159; the returned loss is ignored) and `PredictClass` (goslide.go:205). -/
structure NetApi (F P H : Type) where
  processInput : P → List (Example F) → Int → Bool → Bool → H → Go (P × H)
  predictClass : P → List (Example F) → H → Go (Int × P × H)

/-- The log lines with numbers in them, goslide.go:77, 199-200, 209-211, 214-216, 218-219. -/
inductive Line (F : Type) where
  | epoch (e : Int)
  | records (batchSize numFeatures numLabels : Int)
  | iter (i : Int) (accuracy : F)
  | overall (accuracy : F)
  | summary (iter : Int) (accuracy : F)
deriving Repr, DecidableEq

/-- The memory and the log. -/
structure State (F H : Type) where
  heap : H
  log : List (Line F)
deriving Repr, DecidableEq

/-- Go `a / b` on `int`. -/
def goDiv (a b : Int) : Go Int := if b = 0 then .error .divZero else .ok (a.tdiv b)

/-- Go `a % b` on `int`. -/
def goMod (a b : Int) : Go Int := if b = 0 then .error .divZero else .ok (a.tmod b)

/-- goslide.go:115-124 and 171-180: open the file and read its header; any error ends the process. -/
def openData (files : Bytes → Option Bytes) (path : Bytes) : Go (Scanner F) :=
  match files path with
  | none => .error .exit
  | some content =>
    let scanner : Scanner F := newScanner content
    if scanner.Err ≠ none then .error .exit else .ok scanner

/-- `make([]dataset.Example, 0, config.BatchSize)`, goslide.go:126 and 182. -/
def makeExamples (batchSize : Int) : Go Unit := if batchSize < 0 then .error .makeLen else .ok ()

/-- The loops goslide.go:134-136 and 188-193 (`n` = how many examples may still be read). -/
def readBatch (parseFloat : Bytes → Option F) : (n : Nat) → Scanner F → List (Example F) × Scanner F
  | 0, s => ([], s)
  | n + 1, s =>
    match scan parseFloat s with
    | (true, s) => let (es, s') := readBatch parseFloat n s; (s.ex :: es, s')
    | (false, s) => ([], s)

/-- `float64(totCorrect)/(float64(config.BatchSize)*(float64(i)+1))`, goslide.go:210. -/
def iterAccuracy (totCorrect batchSize i : Int) : F :=
  GoFloat.div (GoFloat.ofInt totCorrect)
    (GoFloat.mul (GoFloat.ofInt batchSize) (GoFloat.add (GoFloat.ofInt i) GoFloat.one))

/-- `float64(totCorrect)/(float64(numBatchesTest)*float64(config.BatchSize))`, goslide.go:215, 219. -/
def overallAccuracy (totCorrect numBatchesTest batchSize : Int) : F :=
  GoFloat.div (GoFloat.ofInt totCorrect) (GoFloat.mul (GoFloat.ofInt numBatchesTest) (GoFloat.ofInt batchSize))

/-- The loop goslide.go:184-212 (`n` = remaining iterations). Returns `totCorrect`. -/
def evalLoop (api : NetApi F P H) (parseFloat : Bytes → Option F) (cfg : Config F) :
    (n : Nat) → (i totCorrect : Int) → Scanner F → P → State F H → Go (Int × State F H)
  | 0, _, totCorrect, _, _, st => .ok (totCorrect, st)
  | n + 1, i, totCorrect, scanner, myNet, st => do
    let (examples, scanner) := readBatch parseFloat cfg.BatchSize.toNat scanner
    let numFeatures : Int := (examples.map (fun e => (e.Features.length : Int))).sum
    let numLabels : Int := (examples.map (fun e => (e.Labels.length : Int))).sum
    if scanner.Err ≠ none then .error .exit
    else
      let log := st.log ++ [.records cfg.BatchSize numFeatures numLabels]
      let (correctPredict, myNet, heap) ← api.predictClass myNet examples st.heap
      let totCorrect := totCorrect + correctPredict
      evalLoop api parseFloat cfg n (i + 1) totCorrect scanner myNet
        { heap := heap, log := log ++ [.iter i (iterAccuracy totCorrect cfg.BatchSize i)] }

/-- `evaluateSvm`, goslide.go:166-220. The reassigned `myNet` is local: only the memory is returned. -/
def evaluateSvm (api : NetApi F P H) (parseFloat : Bytes → Option F) (files : Bytes → Option Bytes)
    (cfg : Config F) (numBatchesTest : Int) (myNet : P) (iter : Int) (st : State F H) : Go (State F H) := do
  let scanner ← openData files cfg.TestData
  makeExamples cfg.BatchSize
  let (totCorrect, st) ← evalLoop api parseFloat cfg numBatchesTest.toNat 0 0 scanner myNet st
  let acc := overallAccuracy totCorrect numBatchesTest cfg.BatchSize
  .ok { st with log := st.log ++ [.overall acc, .summary iter acc] }

/-- goslide.go:142-153: the flags `rehash` and `rebuild` of one batch. -/
def flags (cfg : Config F) (numBatches epoch i : Int) : Go (Bool × Bool) :=
  if cfg.LayerMode = 1 ∨ cfg.LayerMode = 4 then do
    let a ← goMod (epoch * numBatches + i) (← goDiv cfg.Rehash cfg.BatchSize)
    let rehash := decide (a = (cfg.Rehash.tdiv cfg.BatchSize) - 1)
    let b ← goMod (epoch * numBatches + i) (← goDiv cfg.Rebuild cfg.BatchSize)
    let rebuild := decide (b = (cfg.Rebuild.tdiv cfg.BatchSize) - 1)
    .ok (rehash, rebuild)
  else .ok (false, false)

/-- goslide.go:129-131: the evaluation inside the training loop. -/
def maybeEval (api : NetApi F P H) (parseFloat : Bytes → Option F) (files : Bytes → Option Bytes)
    (cfg : Config F) (numBatches epoch i : Int) (myNet : P) (st : State F H) : Go (State F H) :=
  if i > 0 then do
    let r ← goMod (i + epoch * numBatches) cfg.Stepsize
    if r = 0 then evaluateSvm api parseFloat files cfg 20 myNet (epoch * numBatches + i) st else .ok st
  else .ok st

/-- The loop goslide.go:128-163 (`n` = remaining iterations). -/
def trainLoop (api : NetApi F P H) (parseFloat : Bytes → Option F) (files : Bytes → Option Bytes)
    (cfg : Config F) (numBatches epoch : Int) :
    (n : Nat) → (i : Int) → Scanner F → P → State F H → Go (State F H)
  | 0, _, _, _, st => .ok st
  | n + 1, i, scanner, myNet, st => do
    let st ← maybeEval api parseFloat files cfg numBatches epoch i myNet st
    let (examples, scanner) := readBatch parseFloat cfg.BatchSize.toNat scanner
    if scanner.Err ≠ none then .error .exit
    else
      let (rehash, rebuild) ← flags cfg numBatches epoch i
      let (myNet, heap) ← api.processInput myNet examples (epoch * numBatches + i) rehash rebuild st.heap
      trainLoop api parseFloat files cfg numBatches epoch n (i + 1) scanner myNet { st with heap := heap }

/-- `trainSvmEpoch`, goslide.go:112-164. -/
def trainSvmEpoch (api : NetApi F P H) (parseFloat : Bytes → Option F) (files : Bytes → Option Bytes)
    (cfg : Config F) (numBatches : Int) (myNet : P) (epoch : Int) (st : State F H) : Go (State F H) := do
  let scanner ← openData files cfg.TrainData
  makeExamples cfg.BatchSize
  trainLoop api parseFloat files cfg numBatches epoch numBatches.toNat 0 scanner myNet st

/-- The loop goslide.go:76-87 (`n` = remaining epochs). -/
def epochs (api : NetApi F P H) (parseFloat : Bytes → Option F) (files : Bytes → Option Bytes)
    (cfg : Config F) (numBatches numBatchesTest : Int) (myNet : P) :
    (n : Nat) → (e : Int) → State F H → Go (State F H)
  | 0, _, st => .ok st
  | n + 1, e, st => do
    let st := { st with log := st.log ++ [.epoch e] }
    let st ← trainSvmEpoch api parseFloat files cfg numBatches myNet e st
    let st ← evaluateSvm api parseFloat files cfg (if e = cfg.Epoch - 1 then numBatchesTest else 50) myNet
      ((e + 1) * numBatches) st
    epochs api parseFloat files cfg numBatches numBatchesTest myNet n (e + 1) st

/-- The loop goslide.go:105-107 (`n` = remaining iterations; `false` = ReLU, `true` = Softmax,
node/node_type.go:9-12). -/
def layersTypesLoop : (n : Nat) → (i : Int) → List Bool → Go (List Bool)
  | 0, _, l => .ok l
  | n + 1, i, l => do layersTypesLoop n (i + 1) (← goSet l i false)

/-- `makeLayersTypes`, goslide.go:103-110. -/
def makeLayersTypes (numLayers : Int) : Go (List Bool) :=
  if numLayers < 0 then .error .makeLen
  else do
    let l ← layersTypesLoop (numLayers - 1).toNat 0 (List.replicate numLayers.toNat false)
    goSet l (numLayers - 1) true

/-- `main`, goslide.go:24-101, after the configuration has been read; `newNet` is the call of
`network.New` with the layer types (goslide.go:58-70). -/
def run (api : NetApi F P H) (parseFloat : Bytes → Option F) (files : Bytes → Option Bytes)
    (cfg : Config F) (newNet : List Bool → H → Go (P × H)) (st : State F H) : Go (State F H) := do
  let numBatches ← goDiv cfg.TotRecords cfg.BatchSize
  let numBatchesTest ← goDiv cfg.TotRecordsTest cfg.BatchSize
  let types ← makeLayersTypes cfg.NumLayer
  let (myNet, heap) ← newNet types st.heap
  epochs api parseFloat files cfg numBatches numBatchesTest myNet cfg.Epoch.toNat 0 { st with heap := heap }

end Goslide.Driver

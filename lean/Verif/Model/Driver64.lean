import Verif.Model.Program
/-
The driver once more, with Go's 64-bit `int`: every `+`, `-`, `*` and `/` on `int` in goslide.go is followed by `wrap`. Model/Driver.lean
computes with unbounded integers; Props/Driver64.lean compares the two.

The counters of the `for` loops are below their bounds, so `i++` is written with `wrap` for uniformity only; the loops over the lines of a
batch (goslide.go:134-136, 188-193) use `readBatch` unchanged, as their counter stays at most `BatchSize`.
-/
namespace Goslide.Driver64
open Configuration Layer Xcrepo Driver
variable {F P H : Type} [GoFloat F]

/-- The `int` (64 bits, two's complement) that agrees with `a` modulo 2^64. -/
def wrap (a : Int) : Int := a.bmod (2 ^ 64)

/-- Go `a / b` on `int`. (`a % b` cannot overflow: `goMod` is used.) -/
def goDiv (a b : Int) : Go Int := if b = 0 then .error .divZero else .ok (wrap (a.tdiv b))

/-- `numFeatures += len(...)`, `numLabels += len(...)`, goslide.go:191-192. -/
def sum (l : List Int) : Int := l.foldl (fun a b => wrap (a + b)) 0

/-- The loop goslide.go:184-212 (`n` = remaining iterations). Returns `totCorrect`. -/
def evalLoop (api : NetApi F P H) (parseFloat : Bytes → Option F) (cfg : Config F) :
    (n : Nat) → (i totCorrect : Int) → Scanner F → P → State F H → Go (Int × State F H)
  | 0, _, totCorrect, _, _, st => .ok (totCorrect, st)
  | n + 1, i, totCorrect, scanner, myNet, st => do
    let (examples, scanner) := readBatch parseFloat cfg.BatchSize.toNat scanner
    let numFeatures : Int := sum (examples.map (fun e => (e.Features.length : Int)))
    let numLabels : Int := sum (examples.map (fun e => (e.Labels.length : Int)))
    if scanner.Err ≠ none then .error .exit
    else
      let log := st.log ++ [.records cfg.BatchSize numFeatures numLabels]
      let (correctPredict, myNet, heap) ← api.predictClass myNet examples st.heap
      let totCorrect := wrap (totCorrect + correctPredict)
      evalLoop api parseFloat cfg n (wrap (i + 1)) totCorrect scanner myNet
        { heap := heap, log := log ++ [.iter i (iterAccuracy totCorrect cfg.BatchSize i)] }

/-- `evaluateSvm`, goslide.go:166-220. -/
def evaluateSvm (api : NetApi F P H) (parseFloat : Bytes → Option F) (files : Bytes → Option Bytes)
    (cfg : Config F) (numBatchesTest : Int) (myNet : P) (iter : Int) (st : State F H) : Go (State F H) := do
  let scanner ← openData files cfg.TestData
  makeExamples cfg.BatchSize
  let (totCorrect, st) ← evalLoop api parseFloat cfg numBatchesTest.toNat 0 0 scanner myNet st
  let acc := overallAccuracy totCorrect numBatchesTest cfg.BatchSize
  .ok { st with log := st.log ++ [.overall acc, .summary iter acc] }

/-- goslide.go:142-153: the flags `rehash` and `rebuild` of one batch. -/
def flags (cfg : Config F) (numBatches epoch i : Int) : Go (Bool × Bool) :=
  if cfg.LayerMode = 1 ∨ cfg.LayerMode = 4 then do
    let a ← goMod (wrap (wrap (epoch * numBatches) + i)) (← goDiv cfg.Rehash cfg.BatchSize)
    let rehash := decide (a = wrap (wrap (cfg.Rehash.tdiv cfg.BatchSize) - 1))
    let b ← goMod (wrap (wrap (epoch * numBatches) + i)) (← goDiv cfg.Rebuild cfg.BatchSize)
    let rebuild := decide (b = wrap (wrap (cfg.Rebuild.tdiv cfg.BatchSize) - 1))
    .ok (rehash, rebuild)
  else .ok (false, false)

/-- goslide.go:129-131: the evaluation inside the training loop. -/
def maybeEval (api : NetApi F P H) (parseFloat : Bytes → Option F) (files : Bytes → Option Bytes)
    (cfg : Config F) (numBatches epoch i : Int) (myNet : P) (st : State F H) : Go (State F H) :=
  if i > 0 then do
    let r ← goMod (wrap (i + wrap (epoch * numBatches))) cfg.Stepsize
    if r = 0 then evaluateSvm api parseFloat files cfg 20 myNet (wrap (wrap (epoch * numBatches) + i)) st else .ok st
  else .ok st

/-- The loop goslide.go:128-163 (`n` = remaining iterations). -/
def trainLoop (api : NetApi F P H) (parseFloat : Bytes → Option F) (files : Bytes → Option Bytes)
    (cfg : Config F) (numBatches epoch : Int) :
    (n : Nat) → (i : Int) → Scanner F → P → State F H → Go (State F H)
  | 0, _, _, _, st => .ok st
  | n + 1, i, scanner, myNet, st => do
    let st ← maybeEval api parseFloat files cfg numBatches epoch i myNet st
    let (examples, scanner) := readBatch parseFloat cfg.BatchSize.toNat scanner
    if scanner.Err ≠ none then .error .exit
    else
      let (rehash, rebuild) ← flags cfg numBatches epoch i
      let (myNet, heap) ← api.processInput myNet examples (wrap (wrap (epoch * numBatches) + i)) rehash rebuild st.heap
      trainLoop api parseFloat files cfg numBatches epoch n (wrap (i + 1)) scanner myNet { st with heap := heap }

/-- `trainSvmEpoch`, goslide.go:112-164. -/
def trainSvmEpoch (api : NetApi F P H) (parseFloat : Bytes → Option F) (files : Bytes → Option Bytes)
    (cfg : Config F) (numBatches : Int) (myNet : P) (epoch : Int) (st : State F H) : Go (State F H) := do
  let scanner ← openData files cfg.TrainData
  makeExamples cfg.BatchSize
  trainLoop api parseFloat files cfg numBatches epoch numBatches.toNat 0 scanner myNet st

/-- The loop goslide.go:76-87 (`n` = remaining epochs). -/
def epochs (api : NetApi F P H) (parseFloat : Bytes → Option F) (files : Bytes → Option Bytes)
    (cfg : Config F) (numBatches numBatchesTest : Int) (myNet : P) :
    (n : Nat) → (e : Int) → State F H → Go (State F H)
  | 0, _, st => .ok st
  | n + 1, e, st => do
    let st := { st with log := st.log ++ [.epoch e] }
    let st ← trainSvmEpoch api parseFloat files cfg numBatches myNet e st
    let st ← evaluateSvm api parseFloat files cfg (if e = wrap (cfg.Epoch - 1) then numBatchesTest else 50) myNet
      (wrap (wrap (e + 1) * numBatches)) st
    epochs api parseFloat files cfg numBatches numBatchesTest myNet n (wrap (e + 1)) st

/-- The loop goslide.go:105-107. -/
def layersTypesLoop : (n : Nat) → (i : Int) → List Bool → Go (List Bool)
  | 0, _, l => .ok l
  | n + 1, i, l => do layersTypesLoop n (wrap (i + 1)) (← goSet l i false)

/-- `makeLayersTypes`, goslide.go:103-110. -/
def makeLayersTypes (numLayers : Int) : Go (List Bool) :=
  if numLayers < 0 then .error .makeLen
  else do
    let l ← layersTypesLoop (wrap (numLayers - 1)).toNat 0 (List.replicate numLayers.toNat false)
    goSet l (wrap (numLayers - 1)) true

/-- `main`, goslide.go:24-101, after the configuration has been read. -/
def run (api : NetApi F P H) (parseFloat : Bytes → Option F) (files : Bytes → Option Bytes)
    (cfg : Config F) (newNet : List Bool → H → Go (P × H)) (st : State F H) : Go (State F H) := do
  let numBatches ← goDiv cfg.TotRecords cfg.BatchSize
  let numBatchesTest ← goDiv cfg.TotRecordsTest cfg.BatchSize
  let types ← makeLayersTypes cfg.NumLayer
  let (myNet, heap) ← newNet types st.heap
  epochs api parseFloat files cfg numBatches numBatchesTest myNet cfg.Epoch.toNat 0 { st with heap := heap }

/-- `main`, goslide.go:30-101, for the configuration `cfg`. -/
def main (parseFloat : Bytes → Option F) (files : Bytes → Option Bytes) (cfg : Config F) (fuel : Nat) (w : World F) :
    Go (State F (World F)) :=
  run (Program.netApi cfg fuel) parseFloat files cfg (Program.newNet cfg) ⟨w, []⟩

end Goslide.Driver64

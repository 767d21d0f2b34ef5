import Verif.Go.Strings
import Verif.Go.Float
/-
Model of configuration/configuration.go, with the part of `encoding/json` that it uses.
(The field list, getters and setters are written out mechanically.)
-/
namespace Goslide
namespace Configuration
variable {F : Type} [GoFloat F]

/-- configuration/configuration.go:14-41. `HashFunction` and `LayerMode` are int8. Strings are bytes. -/
structure Config (F : Type) where
  RangePow : List Int
  K : List Int
  L : List Int
  Sparsity : List F
  BatchSize : Int
  Rehash : Int
  Rebuild : Int
  InputDim : Int
  TotRecords : Int
  TotRecordsTest : Int
  LearningRate : F
  Epoch : Int
  Stepsize : Int
  SizesOfLayers : List Int
  NumLayer : Int
  TrainData : Bytes
  TestData : Bytes
  Weights : Bytes
  SavedWeights : Bytes
  LogFile : Bytes
  UseAdam : Bool
  HashFunction : Int
  LoadWeight : Bool
  LayerMode : Int
  CpuProfile : Bool
  MemProfile : Bool
deriving Repr, DecidableEq

/-- The fields of the configuration, configuration/configuration.go:15-40. -/
inductive Field where
  | rangePow
  | k
  | l
  | sparsity
  | batchSize
  | rehash
  | rebuild
  | inputDim
  | totRecords
  | totRecordsTest
  | learningRate
  | epoch
  | stepsize
  | sizesOfLayers
  | numLayer
  | trainData
  | testData
  | weights
  | savedWeights
  | logFile
  | useAdam
  | hashFunction
  | loadWeight
  | layerMode
  | cpuProfile
  | memProfile
deriving Repr, DecidableEq

/-- All the fields. -/
def allFields : List Field :=
  [.rangePow, .k, .l, .sparsity, .batchSize, .rehash, .rebuild, .inputDim, .totRecords, .totRecordsTest, .learningRate, .epoch, .stepsize, .sizesOfLayers, .numLayer, .trainData, .testData, .weights, .savedWeights, .logFile, .useAdam, .hashFunction, .loadWeight, .layerMode, .cpuProfile, .memProfile]

/-- The Go name of a field, which is its JSON key (no struct tags), configuration/configuration.go:15-40. -/
def Field.name : Field → String
  | .rangePow => "RangePow"
  | .k => "K"
  | .l => "L"
  | .sparsity => "Sparsity"
  | .batchSize => "BatchSize"
  | .rehash => "Rehash"
  | .rebuild => "Rebuild"
  | .inputDim => "InputDim"
  | .totRecords => "TotRecords"
  | .totRecordsTest => "TotRecordsTest"
  | .learningRate => "LearningRate"
  | .epoch => "Epoch"
  | .stepsize => "Stepsize"
  | .sizesOfLayers => "SizesOfLayers"
  | .numLayer => "NumLayer"
  | .trainData => "TrainData"
  | .testData => "TestData"
  | .weights => "Weights"
  | .savedWeights => "SavedWeights"
  | .logFile => "LogFile"
  | .useAdam => "UseAdam"
  | .hashFunction => "HashFunction"
  | .loadWeight => "LoadWeight"
  | .layerMode => "LayerMode"
  | .cpuProfile => "CpuProfile"
  | .memProfile => "MemProfile"

/-- A field value with its Go type. -/
inductive Val (F : Type) where
  | ints (v : List Int)
  | floats (v : List F)
  | int (v : Int)
  | int8 (v : Int)
  | float (v : F)
  | str (v : Bytes)
  | bool (v : Bool)
deriving Repr, DecidableEq

/-- Read a field. -/
def Config.get (c : Config F) : Field → Val F
  | .rangePow => .ints c.RangePow
  | .k => .ints c.K
  | .l => .ints c.L
  | .sparsity => .floats c.Sparsity
  | .batchSize => .int c.BatchSize
  | .rehash => .int c.Rehash
  | .rebuild => .int c.Rebuild
  | .inputDim => .int c.InputDim
  | .totRecords => .int c.TotRecords
  | .totRecordsTest => .int c.TotRecordsTest
  | .learningRate => .float c.LearningRate
  | .epoch => .int c.Epoch
  | .stepsize => .int c.Stepsize
  | .sizesOfLayers => .ints c.SizesOfLayers
  | .numLayer => .int c.NumLayer
  | .trainData => .str c.TrainData
  | .testData => .str c.TestData
  | .weights => .str c.Weights
  | .savedWeights => .str c.SavedWeights
  | .logFile => .str c.LogFile
  | .useAdam => .bool c.UseAdam
  | .hashFunction => .int8 c.HashFunction
  | .loadWeight => .bool c.LoadWeight
  | .layerMode => .int8 c.LayerMode
  | .cpuProfile => .bool c.CpuProfile
  | .memProfile => .bool c.MemProfile

/-- Assign a field; a value of another type is ignored (`decode` below never produces one). -/
def Config.set (c : Config F) : Field → Val F → Config F
  | .rangePow, .ints v => { c with RangePow := v }
  | .k, .ints v => { c with K := v }
  | .l, .ints v => { c with L := v }
  | .sparsity, .floats v => { c with Sparsity := v }
  | .batchSize, .int v => { c with BatchSize := v }
  | .rehash, .int v => { c with Rehash := v }
  | .rebuild, .int v => { c with Rebuild := v }
  | .inputDim, .int v => { c with InputDim := v }
  | .totRecords, .int v => { c with TotRecords := v }
  | .totRecordsTest, .int v => { c with TotRecordsTest := v }
  | .learningRate, .float v => { c with LearningRate := v }
  | .epoch, .int v => { c with Epoch := v }
  | .stepsize, .int v => { c with Stepsize := v }
  | .sizesOfLayers, .ints v => { c with SizesOfLayers := v }
  | .numLayer, .int v => { c with NumLayer := v }
  | .trainData, .str v => { c with TrainData := v }
  | .testData, .str v => { c with TestData := v }
  | .weights, .str v => { c with Weights := v }
  | .savedWeights, .str v => { c with SavedWeights := v }
  | .logFile, .str v => { c with LogFile := v }
  | .useAdam, .bool v => { c with UseAdam := v }
  | .hashFunction, .int8 v => { c with HashFunction := v }
  | .loadWeight, .bool v => { c with LoadWeight := v }
  | .layerMode, .int8 v => { c with LayerMode := v }
  | .cpuProfile, .bool v => { c with CpuProfile := v }
  | .memProfile, .bool v => { c with MemProfile := v }
  | _, _ => c

/-- `Default`, configuration/configuration.go:61-90. -/
def default : Config F where
  RangePow := []
  K := []
  L := []
  Sparsity := []
  BatchSize := 1000
  Rehash := 1000
  Rebuild := 1000
  InputDim := 784
  TotRecords := 60000
  TotRecordsTest := 10000
  LearningRate := GoFloat.const (1 / 10000)
  Epoch := 5
  Stepsize := 20
  SizesOfLayers := []
  NumLayer := 3
  TrainData := []
  TestData := []
  Weights := []
  SavedWeights := []
  LogFile := []
  UseAdam := true
  HashFunction := 2
  LoadWeight := false
  LayerMode := 4
  CpuProfile := false
  MemProfile := false

/-- A JSON value after lexing; numbers keep their literal, strings are unescaped. -/
inductive Json where
  | null
  | bool (b : Bool)
  | num (lit : Bytes)
  | str (s : Bytes)
  | arr (l : List Json)
  | obj (l : List (String × Json))

/-- `foldRune` of `encoding/json` on the runes that fold to ASCII letters: lower case, the long s
(U+017F) and the Kelvin sign (U+212A). -/
def foldChar (c : Char) : Char :=
  if 'a'.toNat ≤ c.toNat ∧ c.toNat ≤ 'z'.toNat then Char.ofNat (c.toNat - 32)
  else if c.toNat = 0x17F then 'S'
  else if c.toNat = 0x212A then 'K'
  else c

/-- `foldName` of `encoding/json`. -/
def foldName (s : String) : List Char := s.toList.map foldChar

/-- The struct field selected by a JSON key: keys are matched up to case folding (an exact match is
preferred, but no two field names are equal up to folding). -/
def fieldOf (key : String) : Option Field := allFields.find? (fun f => foldName f.name == foldName key)

/-- Decoding a JSON array into `[]int`: a `null` element leaves the element as it was (`old`; 0 if it is
new), a number must be an int64 literal; `none` is a type error. (Stale values in spare capacity, only
visible through repeated keys with null elements, are not modelled.) -/
def decodeInts : List Json → (old : List Int) → Option (List Int)
  | [], _ => some []
  | .null :: js, old => (decodeInts js old.tail).map (old.headD 0 :: ·)
  | .num lit :: js, old => (atoi lit).bind (fun n => (decodeInts js old.tail).map (n :: ·))
  | _ :: _, _ => none

/-- Decoding a JSON array into `[]float64`. -/
def decodeFloats (parseFloat : Bytes → Option F) : List Json → (old : List F) → Option (List F)
  | [], _ => some []
  | .null :: js, old => (decodeFloats parseFloat js old.tail).map (old.headD GoFloat.zero :: ·)
  | .num lit :: js, old =>
    (parseFloat lit).bind (fun x => (decodeFloats parseFloat js old.tail).map (x :: ·))
  | _ :: _, _ => none

/-- `json.Unmarshal` of one value into a field holding `old`: `none` is an `UnmarshalTypeError`. `null`
leaves scalars alone and makes a slice nil. -/
def decode (parseFloat : Bytes → Option F) (old : Val F) (j : Json) : Option (Val F) :=
  match old, j with
  | .ints _, .null => some (.ints [])
  | .floats _, .null => some (.floats [])
  | v, .null => some v
  | .ints v, .arr l => (decodeInts l v).map .ints
  | .floats v, .arr l => (decodeFloats parseFloat l v).map .floats
  | .int _, .num lit => (atoi lit).map .int
  | .int8 _, .num lit =>
    (atoi lit).bind (fun n => if -128 ≤ n ∧ n ≤ 127 then some (.int8 n) else none)
  | .float _, .num lit => (parseFloat lit).map .float
  | .str _, .str s => some (.str s)
  | .bool _, .bool b => some (.bool b)
  | _, _ => none

/-- One key of the object: unknown keys are ignored, type errors are remembered (`false`). -/
def assign (parseFloat : Bytes → Option F) (st : Config F × Bool) (kv : String × Json) : Config F × Bool :=
  match fieldOf kv.1 with
  | none => st
  | some f =>
    match decode parseFloat (st.1.get f) kv.2 with
    | none => (st.1, false)
    | some v => (st.1.set f v, st.2)

/-- `FromJsonFile`, configuration/configuration.go:92-105. `file` is the result of `ReadFile`, `parse` the
JSON syntax (`none` = syntax error). The result `none` is (nil, err). -/
def fromJsonFile (parseFloat : Bytes → Option F) (parse : Bytes → Option Json) (file : Option Bytes) :
    Option (Config F) :=
  match file with
  | none => none
  | some content =>
    match parse content with
    | none => none
    | some .null => some default
    | some (.obj kvs) =>
      let r := kvs.foldl (assign parseFloat) (default, true)
      if r.2 then some r.1 else none
    | some _ => none

end Configuration
end Goslide

import Verif.Model.Configuration
import Verif.Spec.Xcrepo
/-
Specification of what a JSON value means for a configuration field.
-/
namespace Goslide.Spec
open Configuration
variable {F : Type}

/-- The JSON value `j` denotes the field value `v`. -/
inductive Gives (parseFloat : Bytes → Option F) : Json → Val F → Prop
  | int (lit : Bytes) (n : Int) : WritesInt lit n → Gives parseFloat (.num lit) (.int n)
  | int8 (lit : Bytes) (n : Int) : WritesInt lit n → -128 ≤ n → n ≤ 127 → Gives parseFloat (.num lit) (.int8 n)
  | float (lit : Bytes) (x : F) : parseFloat lit = some x → Gives parseFloat (.num lit) (.float x)
  | str (s : Bytes) : Gives parseFloat (.str s) (.str s)
  | bool (b : Bool) : Gives parseFloat (.bool b) (.bool b)
  | ints (l : List Json) (ns : List Int) : All2 (fun j n => ∃ lit, j = .num lit ∧ WritesInt lit n) l ns →
      Gives parseFloat (.arr l) (.ints ns)
  | floats (l : List Json) (xs : List F) : All2 (fun j x => ∃ lit, j = .num lit ∧ parseFloat lit = some x) l xs →
      Gives parseFloat (.arr l) (.floats xs)

/-- Two values of the same Go type. -/
def SameType : Val F → Val F → Prop
  | .ints _, .ints _ => True
  | .floats _, .floats _ => True
  | .int _, .int _ => True
  | .int8 _, .int8 _ => True
  | .float _, .float _ => True
  | .str _, .str _ => True
  | .bool _, .bool _ => True
  | _, _ => False

/-- A JSON value that contains no `null` where an array element is expected. -/
def NoNullElement : Json → Prop
  | .arr l => Json.null ∉ l
  | _ => True

/-- The documented default of each field, configuration/configuration.go:61-90 (`HashFunction` 2 is the
densified WTA hash, `LayerMode` 4 is sampling). -/
def defaultOf [GoFloat F] : Field → Val F
  | .rangePow | .k | .l | .sizesOfLayers => .ints []
  | .sparsity => .floats []
  | .batchSize | .rehash | .rebuild => .int 1000
  | .inputDim => .int 784
  | .totRecords => .int 60000
  | .totRecordsTest => .int 10000
  | .learningRate => .float (GoFloat.const (1 / 10000))
  | .epoch => .int 5
  | .stepsize => .int 20
  | .numLayer => .int 3
  | .trainData | .testData | .weights | .savedWeights | .logFile => .str []
  | .useAdam => .bool true
  | .hashFunction => .int8 2
  | .layerMode => .int8 4
  | .loadWeight | .cpuProfile | .memProfile => .bool false

end Goslide.Spec

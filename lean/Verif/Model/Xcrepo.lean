import Verif.Go.Strings
import Verif.Go.Float
/-
Model of dataset/xcrepo/xcrepo.go.

The reader is its whole content (`rest` is what the scanner has not consumed yet); read errors are not
modelled. `bufio.Scanner` with `ScanLines` and its default buffer limit is modelled by `bufScan`.
`strconv.ParseFloat` is the parameter `parseFloat` (`none` = a non-nil error).
-/
namespace Goslide

/-- dataset/dataset.go:9-12 (a nil slice and an empty one are not distinguished). -/
structure Example (F : Type) where
  Features : List (Pair F)
  Labels : List Int
deriving Repr, DecidableEq

namespace Xcrepo
variable {F : Type} [GoFloat F]

/-- The error values: dataset/xcrepo/xcrepo.go:33-41 and `bufio.ErrTooLong`. -/
inductive Err where
  | malformedHeader | notEnoughFields | malformedLabels | missingFeatures | malformedFeatures
  | labelOutOfBounds | featureIndexOutOfBounds
  | tooLong
deriving Repr, DecidableEq

/-- `bufio.MaxScanTokenSize`: the scanner gives up when its buffer of this size holds no newline. -/
def maxTokenSize : Nat := 65536

/-- The state of the `bufio.Scanner`: unread bytes, `Err()` and `Text()`. -/
structure BufScanner where
  rest : Bytes
  tooLong : Bool
  text : Bytes
deriving Repr, DecidableEq

/-- `bufio.Scanner.Scan` with `bufio.ScanLines` (a last line without newline counts if it is not
empty). A line with `maxTokenSize` bytes or more before its newline fills the buffer: `ErrTooLong`. -/
def bufScan (b : BufScanner) : Bool × BufScanner :=
  if b.tooLong then (false, { b with text := [] })
  else if b.rest = [] then (false, { b with text := [] })
  else if maxTokenSize ≤ (takeLine b.rest).length then (false, { b with tooLong := true, text := [] })
  else (true, { b with rest := dropLine b.rest, text := dropCR (takeLine b.rest) })

/-- dataset/xcrepo/xcrepo.go:22-30 -/
structure Scanner (F : Type) where
  buf : BufScanner
  err : Option Err
  lineNumber : Nat
  totalPoints : Int
  numFeatures : Int
  numLabels : Int
  ex : Example F
deriving Repr, DecidableEq

/-- `Err`, dataset/xcrepo/xcrepo.go:58-63. -/
def Scanner.Err (s : Scanner F) : Option Err :=
  match s.err with
  | some e => some e
  | none => if s.buf.tooLong then some .tooLong else none

/-- The loop dataset/xcrepo/xcrepo.go:124-135: `done` are the labels already stored; the cells not yet
written are 0. Returns the content of `s.example.Labels` and the error set. -/
def labelsLoop (numLabels : Int) : (done : List Int) → List Bytes → List Int × Option Err
  | done, [] => (done, none)
  | done, value :: rest =>
    match atoi value with
    | none => (done ++ List.replicate (rest.length + 1) 0, some .malformedLabels)
    | some label =>
      if label < 0 ∨ label ≥ numLabels then
        (done ++ List.replicate (rest.length + 1) 0, some .labelOutOfBounds)
      else labelsLoop numLabels (done ++ [label]) rest

/-- `parseLabels`, dataset/xcrepo/xcrepo.go:115-137. -/
def parseLabels (s : Scanner F) (str : Bytes) : Bool × Scanner F :=
  if str.length = 0 then (true, { s with ex := { s.ex with Labels := [] } })
  else
    let (labels, err) := labelsLoop s.numLabels [] (split 44 str)
    match err with
    | some e => (false, { s with ex := { s.ex with Labels := labels }, err := some e })
    | none => (true, { s with ex := { s.ex with Labels := labels } })

/-- The loop dataset/xcrepo/xcrepo.go:148-175, as `labelsLoop` (unwritten cells are `{0, 0.0}`). -/
def featuresLoop (parseFloat : Bytes → Option F) (numFeatures : Int) :
    (done : List (Pair F)) → List Bytes → List (Pair F) × Option Err
  | done, [] => (done, none)
  | done, pair :: rest =>
    let fail := done ++ List.replicate (rest.length + 1) { Index := 0, Value := GoFloat.zero }
    match split 58 pair with
    | [a, b] =>
      match atoi a with
      | none => (fail, some .malformedFeatures)
      | some featureIndex =>
        if featureIndex < 0 ∨ featureIndex ≥ numFeatures then (fail, some .featureIndexOutOfBounds)
        else match parseFloat b with
          | none => (fail, some .malformedFeatures)
          | some featureValue =>
            featuresLoop parseFloat numFeatures (done ++ [{ Index := featureIndex, Value := featureValue }]) rest
    | _ => (fail, some .malformedFeatures)

/-- `parseFeatures`, dataset/xcrepo/xcrepo.go:139-178. -/
def parseFeatures (parseFloat : Bytes → Option F) (s : Scanner F) (pairs : List Bytes) : Bool × Scanner F :=
  if pairs.length = 0 then (false, { s with err := some .missingFeatures })
  else
    let (features, err) := featuresLoop parseFloat s.numFeatures [] pairs
    match err with
    | some e => (false, { s with ex := { s.ex with Features := features }, err := some e })
    | none => (true, { s with ex := { s.ex with Features := features } })

/-- `Scan`, dataset/xcrepo/xcrepo.go:85-113. -/
def scan (parseFloat : Bytes → Option F) (s : Scanner F) : Bool × Scanner F :=
  let s := { s with ex := { Features := [], Labels := [] } }
  if s.Err ≠ none then (false, s)
  else
    let (ok, buf) := bufScan s.buf
    let s := { s with buf := buf }
    if !ok || buf.tooLong then (false, s)
    else
      let s := { s with lineNumber := s.lineNumber + 1 }
      match split 32 s.buf.text with
      | [] => (false, { s with err := some .notEnoughFields })
      | v :: vs =>
        let (ok, s) := parseLabels s v
        if !ok then (false, s) else parseFeatures parseFloat s vs

/-- The loop dataset/xcrepo/xcrepo.go:195-202: `none` = the header is rejected. -/
def headerInts : List Bytes → Option (List Int)
  | [] => some []
  | v :: vs =>
    match atoi v with
    | none => none
    | some n => if n ≤ 0 then none else (headerInts vs).map (n :: ·)

/-- `scanHeader`, dataset/xcrepo/xcrepo.go:180-207 (the result of the first `Scan` is ignored, so an
empty input is parsed as an empty header). -/
def scanHeader (s : Scanner F) : Scanner F :=
  let (_, buf) := bufScan s.buf
  let s := { s with buf := buf }
  if buf.tooLong then s
  else
    let s := { s with lineNumber := s.lineNumber + 1 }
    let values := split 32 s.buf.text
    if values.length ≠ 3 then { s with err := some .malformedHeader }
    else match headerInts values with
      | some [a, b, c] => { s with totalPoints := a, numFeatures := b, numLabels := c }
      | _ => { s with err := some .malformedHeader }

/-- `NewScanner`, dataset/xcrepo/xcrepo.go:43-55 (a fresh `bufio.Scanner` has no error). -/
def newScanner (content : Bytes) : Scanner F :=
  scanHeader { buf := { rest := content, tooLong := false, text := [] }, err := none, lineNumber := 0,
               totalPoints := 0, numFeatures := 0, numLabels := 0, ex := { Features := [], Labels := [] } }

/-- `n` calls of `Scan`. -/
def scanN (parseFloat : Bytes → Option F) : Nat → Scanner F → Scanner F
  | 0, s => s
  | n + 1, s => scanN parseFloat n (scan parseFloat s).2

end Xcrepo
end Goslide

import Verif.Model.Xcrepo
/-
`bufio.Scanner` (Go standard library, bufio/scan.go, with `ScanLines`) over a reader that returns its
bytes in pieces, may fail at any point, and the functions of dataset/xcrepo/xcrepo.go over it.

`Model/Xcrepo.lean` reads from the whole content of the file; here nothing is assumed about how the
bytes arrive. C76 relates the two.
-/
namespace Goslide.Bufio

/-- The error of a `Read` call: `io.EOF` or any other error. -/
inductive ReadErr where
  | eof
  | other (code : Nat)
deriving Repr, DecidableEq

/-- What one `Read` call of the reader returns: bytes, and a nil (`none`) or non-nil error. -/
structure Chunk where
  data : Bytes
  err : Option ReadErr
deriving Repr, DecidableEq

/-- A reader: the results of the successive `Read` calls; after the last one `(0, io.EOF)`. A result
with more bytes than the caller has room for is delivered in several calls. (A reader that
returns a count outside `0..len(p)` breaks the contract of `io.Reader` and is not modelled.) -/
abbrev Reader := List Chunk

/-- The `err` field of `bufio.Scanner`. -/
inductive ScanErr where
  | eof
  | read (code : Nat)
  | noProgress
  | tooLong
deriving Repr, DecidableEq

/-- The scanner stores the error of the reader. -/
def ScanErr.ofRead : ReadErr → ScanErr
  | .eof => .eof
  | .other c => .read c

/-- `bufio.Scanner`: `pending` is `buf[start:end]`, `size` is `len(buf)`. `Scanner.empties` is left
out, since `ScanLines` never returns a token without advancing. -/
structure State where
  start : Nat
  pending : Bytes
  size : Nat
  err : Option ScanErr
  token : Bytes
  reader : Reader
deriving Repr, DecidableEq

/-- `bufio.NewScanner`: no buffer yet. -/
def new (r : Reader) : State :=
  { start := 0, pending := [], size := 0, err := none, token := [], reader := r }

/-- `Scanner.Err`: `io.EOF` is not reported. -/
def State.Err (s : State) : Option ScanErr :=
  if s.err = some .eof then none else s.err

/-- `bufio.ScanLines`: how far to advance, and the token (`none` = nil: more data is needed). -/
def scanLines (data : Bytes) (atEOF : Bool) : Nat × Option Bytes :=
  if atEOF = true ∧ data = [] then (0, none)
  else match data.findIdx? (fun c => c == 10) with
    | some i => (i + 1, some (dropCR (data.take i)))
    | none => if atEOF = true then (data.length, some (dropCR data)) else (0, none)

/-- The reading loop of `Scan`: reads into `room` free bytes until something arrives, the reader
reports an error, or it has returned nothing more than 100 times in a row
(`maxConsecutiveEmptyReads`). -/
def fill (room : Nat) : (loop : Nat) → Reader → Bytes × Option ScanErr × Reader
  | _, [] => ([], some .eof, [])
  | loop, c :: cs =>
    if room < c.data.length then (c.data.take room, none, { c with data := c.data.drop room } :: cs)
    else match c.err with
      | some e => (c.data, some (ScanErr.ofRead e), cs)
      | none =>
        if c.data ≠ [] then (c.data, none, cs)
        else if 100 < loop + 1 then ([], some .noProgress, cs)
        else fill room (loop + 1) cs

/-- The splitting part of `Scan`: executed if there is something in the buffer or the
reader has ended. -/
def trySplit (s : State) : Option Bytes × State :=
  if s.pending ≠ [] ∨ s.err ≠ none then
    let r := scanLines s.pending (decide (s.err ≠ none))
    (r.2, { s with start := s.start + r.1, pending := s.pending.drop r.1, token := r.2.getD [] })
  else (none, s)

/-- Moving the unread bytes to the front of the buffer. -/
def shift (s : State) : State :=
  if 0 < s.start ∧ (s.start + s.pending.length = s.size ∨ s.size / 2 < s.start) then { s with start := 0 } else s

/-- Growing a full buffer: at first 4096 bytes, then twice the size, at most `maxTokenSize`. -/
def grow (s : State) : State :=
  if s.start + s.pending.length = s.size then
    { s with start := 0, size := min (if s.size * 2 = 0 then 4096 else s.size * 2) Xcrepo.maxTokenSize }
  else s

/-- The loop of `Scan`. `fuel` bounds the number of iterations; `scan` gives enough
of it (`scanLoop_fuel`). -/
def scanLoop : (fuel : Nat) → State → Bool × State
  | 0, s => (false, s)
  | fuel + 1, s =>
    match trySplit s with
    | (some _, s) => (true, s)
    | (none, s) =>
      if s.err ≠ none then (false, { s with start := 0, pending := [] })
      else
        let s := shift s
        if s.start + s.pending.length = s.size ∧ Xcrepo.maxTokenSize ≤ s.size then
          (false, { s with err := some .tooLong })
        else
          let s := grow s
          match fill (s.size - (s.start + s.pending.length)) 0 s.reader with
          | (data, err, r) => scanLoop fuel { s with pending := s.pending ++ data, err := err, reader := r }

/-- A bound on the number of `Read` calls that can still be made. -/
def weight : Reader → Nat
  | [] => 0
  | c :: cs => c.data.length + 1 + weight cs

/-- `Scanner.Scan`. -/
def scan (s : State) : Bool × State := scanLoop (weight s.reader + 2) s

end Goslide.Bufio

namespace Goslide.XcrepoIO
open Xcrepo
variable {F : Type} [GoFloat F]

/-- The errors of `Scanner.Err`. -/
inductive Err where
  | format (e : Xcrepo.Err)
  | io (e : Bufio.ScanErr)
deriving Repr, DecidableEq

/-- dataset/xcrepo/xcrepo.go:22-30; `io` is the field `bufScanner`, `s` holds the other
fields (`s.buf` is not used). -/
structure Scanner (F : Type) where
  io : Bufio.State
  s : Xcrepo.Scanner F
deriving Repr, DecidableEq

/-- `Err`, dataset/xcrepo/xcrepo.go:58-63. -/
def Scanner.Err (x : Scanner F) : Option Err :=
  match x.s.err with
  | some e => some (.format e)
  | none => x.io.Err.map .io

/-- `Scan`, dataset/xcrepo/xcrepo.go:85-113. -/
def scan (parseFloat : Bytes → Option F) (x : Scanner F) : Bool × Scanner F :=
  let x := { x with s := { x.s with ex := { Features := [], Labels := [] } } }
  if x.Err ≠ none then (false, x)
  else
    match Bufio.scan x.io with
    | (ok, io) =>
      let x := { x with io := io }
      if !ok || decide (io.Err ≠ none) then (false, x)
      else
        let x := { x with s := { x.s with lineNumber := x.s.lineNumber + 1 } }
        match split 32 x.io.token with
        | [] => (false, { x with s := { x.s with err := some .notEnoughFields } })
        | v :: vs =>
          match parseLabels x.s v with
          | (ok, s) =>
            if !ok then (false, { x with s := s })
            else match parseFeatures parseFloat s vs with
              | (ok, s) => (ok, { x with s := s })

/-- `scanHeader`, dataset/xcrepo/xcrepo.go:180-207. -/
def scanHeader (x : Scanner F) : Scanner F :=
  match Bufio.scan x.io with
  | (_, io) =>
    let x := { x with io := io }
    if io.Err ≠ none then x
    else
      let x := { x with s := { x.s with lineNumber := x.s.lineNumber + 1 } }
      let values := split 32 x.io.token
      if values.length ≠ 3 then { x with s := { x.s with err := some .malformedHeader } }
      else match headerInts values with
        | some [a, b, c] => { x with s := { x.s with totalPoints := a, numFeatures := b, numLabels := c } }
        | _ => { x with s := { x.s with err := some .malformedHeader } }

/-- `NewScanner`, dataset/xcrepo/xcrepo.go:43-55 (a fresh `bufio.Scanner` has no error). -/
def newScanner (r : Bufio.Reader) : Scanner F :=
  scanHeader { io := Bufio.new r,
               s := { buf := { rest := [], tooLong := false, text := [] }, err := none, lineNumber := 0,
                      totalPoints := 0, numFeatures := 0, numLabels := 0, ex := { Features := [], Labels := [] } } }

/-- `n` calls of `Scan`. -/
def scanN (parseFloat : Bytes → Option F) : Nat → Scanner F → Scanner F
  | 0, x => x
  | n + 1, x => scanN parseFloat n (scan parseFloat x).2

end Goslide.XcrepoIO

import Verif.Model.Bufio
/-
What a reader delivers, independently of the scanner that reads from it.
-/
namespace Goslide.Spec
open Bufio

/-- All bytes a reader delivers before its first error, and that error; `k` is the number of empty
results just seen (the 101st in a row counts as the error `io.ErrNoProgress`). -/
def received : (k : Nat) → Reader → Bytes × ScanErr
  | _, [] => ([], .eof)
  | k, c :: cs =>
    match c.err with
    | some e => (c.data, ScanErr.ofRead e)
    | none =>
      if c.data = [] then (if 100 ≤ k then ([], .noProgress) else received (k + 1) cs)
      else (c.data ++ (received 0 cs).1, (received 0 cs).2)

/-- The reader delivers exactly `content` and then the end of the file. -/
def Reads (r : Reader) (content : Bytes) : Prop := received 0 r = (content, .eof)

/-- The reader delivers `content` and then fails with an error that is not the end of the file. -/
def Fails (r : Reader) (content : Bytes) (e : ScanErr) : Prop := received 0 r = (content, e) ∧ e ≠ .eof

/-- Errors come without data, as from an `os.File`. -/
def Separate (r : Reader) : Prop := ∀ c ∈ r, c.err ≠ none → c.data = []

/-- The input ends with a line of exactly 65536 bytes that has no newline. -/
def LongTail (content : Bytes) : Prop :=
  ∃ pre tail : Bytes, content = pre ++ tail ∧ (pre = [] ∨ pre.getLast? = some 10) ∧ 10 ∉ tail ∧ tail.length = 65536

end Goslide.Spec

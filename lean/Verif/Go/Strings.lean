/-
Byte strings and the parts of `strings`, `strconv` and `bufio` used by dataset/xcrepo.
-/
namespace Goslide

/-- Go strings and byte slices. -/
abbrev Bytes := List UInt8

/-- ASCII of a literal, for examples. -/
def bytes (s : String) : Bytes := s.toList.map (fun c => UInt8.ofNat c.toNat)

/-- `strings.Split(s, sep)` for a one-byte separator: cuts at every occurrence, `Split("", sep)` is
`[""]`. -/
def split (sep : UInt8) : Bytes → List Bytes
  | [] => [[]]
  | c :: cs =>
    if c = sep then [] :: split sep cs
    else match split sep cs with
      | [] => [[c]]
      | t :: ts => (c :: t) :: ts

/-- The value of a digit byte, `ch - '0'` in `strconv.Atoi` (an error above 9). -/
def digitVal (c : UInt8) : Option Nat :=
  if 48 ≤ c.toNat ∧ c.toNat ≤ 57 then some (c.toNat - 48) else none

/-- The digit loop of `strconv.Atoi`/`ParseUint`: value of a non-empty digit string. -/
def digitsVal : Nat → Bytes → Option Nat
  | acc, [] => some acc
  | acc, c :: cs =>
    match digitVal c with
    | none => none
    | some d => digitsVal (acc * 10 + d) cs

/-- One or more digits (`strconv` rejects an empty digit string). -/
def unsigned (ds : Bytes) : Option Nat := if ds = [] then none else digitsVal 0 ds

/-- `strconv.Atoi` on a 64-bit platform: an optional sign, at least one decimal digit, nothing else;
a value outside the int64 range is an error. (The fast path for fewer than 19 bytes and the slow path
through `ParseInt` compute the same.) -/
def atoi : Bytes → Option Int
  | [] => none
  | c :: cs =>
    if c = 45 then (unsigned cs).bind (fun n => if n ≤ 2 ^ 63 then some (-(n : Int)) else none)
    else (unsigned (if c = 43 then cs else c :: cs)).bind
      (fun n => if n < 2 ^ 63 then some (n : Int) else none)

/-- `dropCR` of `bufio.ScanLines`: drop one trailing carriage return. -/
def dropCR (l : Bytes) : Bytes := if l.getLast? = some 13 then l.dropLast else l

/-- The bytes before the first newline. -/
def takeLine (l : Bytes) : Bytes := l.takeWhile (fun c => c != 10)

/-- What is left after the first line and its newline. -/
def dropLine (l : Bytes) : Bytes := (l.dropWhile (fun c => c != 10)).drop 1

end Goslide

import Verif.Go.Strings
import Verif.Go.Binary64
/-
`strconv.ParseFloat(s, 64)` of Go's standard library (strconv/atof.go), called in dataset/xcrepo/xcrepo.go:165 and, through
`json.Unmarshal`, in configuration/configuration.go:99. The conversion to binary is modelled by exact arithmetic and one rounding (the
algorithms of the library are there to compute this fast). An error is `none`.
-/
namespace Goslide.ParseFloat
open Binary64

/-- The value of a digit in base 10 or 16 (`readFloat`, the cases of the digit loop). -/
def digit (base : Nat) (c : UInt8) : Option Nat :=
  if 48 ≤ c.toNat ∧ c.toNat ≤ 57 then some (c.toNat - 48)
  else if base = 16 ∧ 97 ≤ c.toNat ∧ c.toNat ≤ 102 then some (c.toNat - 87)
  else if base = 16 ∧ 65 ≤ c.toNat ∧ c.toNat ≤ 70 then some (c.toNat - 55)
  else none

/-- The digit loop of `readFloat`: the number with the digits appended to `acc`, how many there were, and what follows. -/
def numeral (base acc : Nat) : Bytes → Nat × Nat × Bytes
  | [] => (acc, 0, [])
  | c :: cs =>
    match digit base c with
    | none => (acc, 0, c :: cs)
    | some d =>
      let r := numeral base (acc * base + d) cs
      (r.1, r.2.1 + 1, r.2.2)

/-- The digits behind a decimal point, if there is one (`sawdot`). -/
def fraction (base acc : Nat) : Bytes → Nat × Nat × Bytes
  | [] => (acc, 0, [])
  | c :: cs => if c = 46 then numeral base acc cs else (acc, 0, c :: cs)

/-- Digits with at most one point: the number without the point, the number of digits behind the point, what follows. There must be a
digit (`sawdigits`). The library keeps 19 (16) digits and a flag, which is enough to round correctly. -/
def mantissa (base : Nat) (bs : Bytes) : Option (Nat × Nat × Bytes) :=
  let a := numeral base 0 bs
  let b := fraction base a.1 a.2.2
  if a.2.1 + b.2.1 = 0 then none else some b

/-- The exponent loop of `readFloat`: digits to the end; beyond 10000 further digits are ignored. -/
def expDigits (e : Nat) : Bytes → Option Nat
  | [] => some e
  | c :: cs =>
    match digit 10 c with
    | none => none
    | some d => expDigits (if e < 10000 then e * 10 + d else e) cs

/-- At least one digit. -/
def expNat : Bytes → Option Nat
  | [] => none
  | c :: cs => expDigits 0 (c :: cs)

/-- The exponent after its letter: a sign or none, digits. -/
def expSigned : Bytes → Option Int
  | [] => none
  | s :: ds =>
    if s = 43 then (expNat ds).map (fun e : Nat => Int.ofNat e)
    else if s = 45 then (expNat ds).map (fun e : Nat => -Int.ofNat e)
    else (expNat (s :: ds)).map (fun e : Nat => Int.ofNat e)

/-- The exponent: `lower(s[i]) == expChar`. -/
def exponent (small large : UInt8) : Bytes → Option Int
  | [] => none
  | c :: cs => if c = small ∨ c = large then expSigned cs else none

/-- The prefix `0x` of a hexadecimal number, with something behind it. -/
def isHex : Bytes → Bool
  | a :: b :: _ :: _ => a == 48 && (b == 120 || b == 88)
  | _ => false

/-- The value of a number without sign and underscores (`readFloat`): a hexadecimal number needs an exponent. -/
def magnitude (bs : Bytes) : Option ℚ :=
  if isHex bs then
    (mantissa 16 (bs.drop 2)).bind (fun m => (exponent 112 80 m.2.2).map (fun e => (m.1 : ℚ) / 16 ^ m.2.1 * 2 ^ e))
  else
    (mantissa 10 bs).bind (fun m =>
      if m.2.2 = [] then some ((m.1 : ℚ) / 10 ^ m.2.1)
      else (exponent 101 69 m.2.2).map (fun e => (m.1 : ℚ) / 10 ^ m.2.1 * 10 ^ e))

/-- The sign and what follows. -/
def sign : Bytes → Bool × Bytes
  | [] => (false, [])
  | c :: cs => if c = 43 then (false, cs) else if c = 45 then (true, cs) else (false, c :: cs)

/-- ASCII upper case letters to lower case (`commonPrefixLenIgnoreCase`). -/
def lower (c : UInt8) : UInt8 := if 65 ≤ c ∧ c ≤ 90 then c + 32 else c

/-- `special`: `inf` and `infinity` with a sign or none, `nan` without, in upper or lower case. -/
def special (bs : Bytes) : Option B64 :=
  if bs.map lower = bytes "nan" then some .nan
  else if (sign bs).2.map lower = bytes "inf" ∨ (sign bs).2.map lower = bytes "infinity" then some (.inf (sign bs).1)
  else none

/-- The last character that `underscoreOK` has seen. -/
inductive Saw where
  | start
  | digit
  | underscore
  | other
deriving DecidableEq

/-- The loop of `underscoreOK` (strconv/atoi.go): underscores stand between digits. -/
def underscores (base : Nat) : Saw → Bytes → Bool
  | saw, [] => saw != .underscore
  | saw, c :: cs =>
    if (digit base c).isSome then underscores base .digit cs
    else if c = 95 then if saw = .digit then underscores base .underscore cs else false
    else if saw = .underscore then false
    else underscores base .other cs

/-- The prefix `0x`. -/
def hasPrefix : Bytes → Bool
  | a :: b :: _ => a == 48 && (b == 120 || b == 88)
  | _ => false

/-- `underscoreOK` without the sign; the prefix `0x` counts as a digit. (The prefixes `0b` and `0o` are left out: no float has them.) -/
def underscoreOk (bs : Bytes) : Bool :=
  if hasPrefix bs then underscores 16 .digit (bs.drop 2) else underscores 10 .start bs

/-- `strconv.ParseFloat(s, 64)`. Underscores are checked and then ignored. A value too large is an error (`ErrRange`), a value too small is
a zero. -/
def parseFloat (bs : Bytes) : Option B64 :=
  match special bs with
  | some x => some x
  | none =>
    let s := sign bs
    if s.2.contains 95 && !underscoreOk s.2 then none
    else (magnitude (s.2.filter (· != 95))).bind (fun q =>
      if q = 0 then some (.zero s.1)
      else
        match Binary64.round (if s.1 then -q else q) with
        | .inf _ => none
        | x => some x)

end Goslide.ParseFloat

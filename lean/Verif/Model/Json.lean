import Verif.Model.Configuration
/-
The syntax part of `json.Unmarshal` (encoding/json: `checkValid` in scanner.go, `unquote` in decode.go), which
configuration/configuration.go:99 applies to the content of the file. The standard library is written as a scanner that takes one
byte at a time; here it is a recursive descent over the same grammar.
-/
namespace Goslide.Json
open Configuration

/-- `isSpace`, scanner.go: space, tab, carriage return, newline. -/
def isSpace (c : UInt8) : Bool := c == 32 || c == 9 || c == 13 || c == 10

/-- Skipping white space. -/
def skip (bs : Bytes) : Bytes := bs.dropWhile isSpace

/-- An ASCII digit. -/
def isDigit (c : UInt8) : Bool := 48 ≤ c && c ≤ 57

/-- An ASCII hexadecimal digit. -/
def isHex (c : UInt8) : Bool := isDigit c || (97 ≤ c && c ≤ 102) || (65 ≤ c && c ≤ 70)

/-- One or more digits (states `stateDot`, `stateESign`); what follows is returned too. -/
def digits1 (bs : Bytes) : Option (Bytes × Bytes) :=
  match bs.takeWhile isDigit with
  | [] => none
  | d :: ds => some (d :: ds, bs.dropWhile isDigit)

/-- The integer part of a number: 0, or digits that do not begin with 0 (`state0`, `state1`). -/
def intPart : Bytes → Option (Bytes × Bytes)
  | [] => none
  | c :: cs => if c = 48 then some ([48], cs) else digits1 (c :: cs)

/-- The fraction: nothing, or a dot and digits (`stateDot`, `stateDot0`). -/
def fracPart : Bytes → Option (Bytes × Bytes)
  | [] => some ([], [])
  | c :: cs => if c = 46 then (digits1 cs).map (fun r => (46 :: r.1, r.2)) else some ([], c :: cs)

/-- The exponent: nothing, or `e`/`E`, a sign or none, and digits (`stateE`, `stateESign`, `stateE0`). -/
def expPart : Bytes → Option (Bytes × Bytes)
  | [] => some ([], [])
  | c :: cs =>
    if c = 101 ∨ c = 69 then
      match cs with
      | [] => none
      | s :: cs' =>
        if s = 43 ∨ s = 45 then (digits1 cs').map (fun r => (c :: s :: r.1, r.2))
        else (digits1 (s :: cs')).map (fun r => (c :: r.1, r.2))
    else some ([], c :: cs)

/-- The sign: a minus or nothing (`stateNeg`). -/
def signPart : Bytes → Bytes × Bytes
  | [] => ([], [])
  | c :: cs => if c = 45 then ([45], cs) else ([], c :: cs)

/-- A number literal and what follows. -/
def number (bs : Bytes) : Option (Bytes × Bytes) :=
  let s := signPart bs
  (intPart s.2).bind (fun i => (fracPart i.2).bind (fun f => (expPart f.2).map (fun e => (s.1 ++ i.1 ++ f.1 ++ e.1, e.2))))

/-- The bytes of a string up to the closing quote, still escaped, and what follows (`stateInString`, `stateInStringEsc`,
`stateInStringEscU…`). Bytes below 32 are errors; so are escapes other than `\b \f \n \r \t \\ \/ \"` and `\u` with four
hexadecimal digits. -/
def strBody : Bytes → Option (Bytes × Bytes)
  | [] => none
  | c :: cs =>
    if c = 34 then some ([], cs)
    else if c < 32 then none
    else if c = 92 then
      match cs with
      | [] => none
      | e :: cs =>
        if e = 98 ∨ e = 102 ∨ e = 110 ∨ e = 114 ∨ e = 116 ∨ e = 92 ∨ e = 47 ∨ e = 34 then
          (strBody cs).map (fun r => (92 :: e :: r.1, r.2))
        else if e = 117 then
          match cs with
          | h1 :: h2 :: h3 :: h4 :: cs =>
            if isHex h1 && isHex h2 && isHex h3 && isHex h4 then
              (strBody cs).map (fun r => (92 :: 117 :: h1 :: h2 :: h3 :: h4 :: r.1, r.2))
            else none
          | _ => none
        else none
    else (strBody cs).map (fun r => (c :: r.1, r.2))

/-- The value of a hexadecimal digit. -/
def hexVal (c : UInt8) : Nat :=
  if c ≤ 57 then c.toNat - 48 else if 97 ≤ c then c.toNat - 87 else c.toNat - 55

/-- `getu4`, decode.go: the code of `\uXXXX` at the beginning of `bs`. -/
def getu4 : Bytes → Option Nat
  | 92 :: 117 :: h1 :: h2 :: h3 :: h4 :: _ =>
    if isHex h1 && isHex h2 && isHex h3 && isHex h4 then some (((hexVal h1 * 16 + hexVal h2) * 16 + hexVal h3) * 16 + hexVal h4)
    else none
  | _ => none

/-- The replacement character, `unicode.ReplacementChar`. -/
def replacement : Char := Char.ofNat 0xFFFD

/-- A continuation byte in the range `lo..hi`. -/
def within (lo hi : Nat) (c : UInt8) : Bool := lo ≤ c.toNat && c.toNat ≤ hi

/-- The range of the second byte of a sequence of three or four bytes, `acceptRanges` in unicode/utf8. -/
def second (c : UInt8) : Nat × Nat :=
  if c = 0xE0 then (0xA0, 0xBF) else if c = 0xED then (0x80, 0x9F) else if c = 0xF0 then (0x90, 0xBF)
  else if c = 0xF4 then (0x80, 0x8F) else (0x80, 0xBF)

/-- `utf8.DecodeRune`: the first character and what follows; `none` is (RuneError, 1). -/
def decodeRune : Bytes → Option (Char × Bytes)
  | [] => none
  | c :: cs =>
    if c.toNat < 0x80 then some (Char.ofNat c.toNat, cs)
    else if within 0xC2 0xDF c then
      match cs with
      | c1 :: cs => if within 0x80 0xBF c1 then some (Char.ofNat ((c.toNat - 0xC0) * 64 + (c1.toNat - 0x80)), cs) else none
      | _ => none
    else if within 0xE0 0xEF c then
      match cs with
      | c1 :: c2 :: cs =>
        if within (second c).1 (second c).2 c1 && within 0x80 0xBF c2 then
          some (Char.ofNat (((c.toNat - 0xE0) * 64 + (c1.toNat - 0x80)) * 64 + (c2.toNat - 0x80)), cs)
        else none
      | _ => none
    else if within 0xF0 0xF4 c then
      match cs with
      | c1 :: c2 :: c3 :: cs =>
        if within (second c).1 (second c).2 c1 && within 0x80 0xBF c2 && within 0x80 0xBF c3 then
          some (Char.ofNat ((((c.toNat - 0xF0) * 64 + (c1.toNat - 0x80)) * 64 + (c2.toNat - 0x80)) * 64 + (c3.toNat - 0x80)), cs)
        else none
      | _ => none
    else none

/-- `utf8.EncodeRune`. -/
def encodeRune (c : Char) : Bytes :=
  let v := c.toNat
  if v < 0x80 then [UInt8.ofNat v]
  else if v < 0x800 then [UInt8.ofNat (0xC0 + v / 64), UInt8.ofNat (0x80 + v % 64)]
  else if v < 0x10000 then [UInt8.ofNat (0xE0 + v / 4096), UInt8.ofNat (0x80 + v / 64 % 64), UInt8.ofNat (0x80 + v % 64)]
  else [UInt8.ofNat (0xF0 + v / 262144), UInt8.ofNat (0x80 + v / 4096 % 64), UInt8.ofNat (0x80 + v / 64 % 64), UInt8.ofNat (0x80 + v % 64)]

/-- The byte of a short escape, decode.go `unquoteBytes`. -/
def shortEscape (e : UInt8) : UInt8 :=
  if e = 98 then 8 else if e = 102 then 12 else if e = 110 then 10 else if e = 114 then 13 else if e = 116 then 9 else e

/-- `unquoteBytes`, decode.go, on the inside of a string that `strBody` accepts: the characters. Surrogate pairs are
combined; surrogates alone and bytes that are not UTF-8 become U+FFFD. -/
def unquote : (fuel : Nat) → Bytes → List Char
  | 0, _ => []
  | _, [] => []
  | n + 1, c :: cs =>
    if c = 92 then
      match getu4 (c :: cs) with
      | some r =>
        if 0xD800 ≤ r ∧ r < 0xE000 then
          match getu4 (cs.drop 5) with
          | some r1 =>
            if r < 0xDC00 ∧ 0xDC00 ≤ r1 ∧ r1 < 0xE000 then
              Char.ofNat ((r - 0xD800) * 1024 + (r1 - 0xDC00) + 0x10000) :: unquote n (cs.drop 11)
            else replacement :: unquote n (cs.drop 5)
          | none => replacement :: unquote n (cs.drop 5)
        else Char.ofNat r :: unquote n (cs.drop 5)
      | none =>
        match cs with
        | [] => []
        | e :: cs => Char.ofNat (shortEscape e).toNat :: unquote n cs
    else
      match decodeRune (c :: cs) with
      | some (ch, rest) => ch :: unquote n rest
      | none => replacement :: unquote n cs

/-- The characters of a string literal (`raw` without the quotes). -/
def chars (raw : Bytes) : List Char := unquote raw.length raw

/-- `maxNestingDepth`, scanner.go. -/
def maxDepth : Nat := 10000

/-- A literal name (`true`, `false`, `null`). -/
def literal (name : Bytes) (j : Json) (bs : Bytes) : Option (Json × Bytes) :=
  if bs.take name.length = name then some (j, bs.drop name.length) else none

mutual

/-- A value with the white space before it, and what follows it (`stateBeginValue`). `depth` is how much deeper the nesting may
become. `fuel` bounds the recursion. -/
def value : (fuel depth : Nat) → Bytes → Option (Json × Bytes)
  | 0, _, _ => none
  | n + 1, depth, bs =>
    match skip bs with
    | [] => none
    | c :: cs =>
      if c = 123 then
        match depth with
        | 0 => none
        | d + 1 =>
          match skip cs with
          | [] => none
          | c' :: rest => if c' = 125 then some (.obj [], rest) else (members n d cs).map (fun r => (.obj r.1, r.2))
      else if c = 91 then
        match depth with
        | 0 => none
        | d + 1 =>
          match skip cs with
          | [] => none
          | c' :: rest => if c' = 93 then some (.arr [], rest) else (elements n d cs).map (fun r => (.arr r.1, r.2))
      else if c = 34 then (strBody cs).map (fun r => (.str ((chars r.1).flatMap encodeRune), r.2))
      else if c = 116 then literal [116, 114, 117, 101] (.bool true) (c :: cs)
      else if c = 102 then literal [102, 97, 108, 115, 101] (.bool false) (c :: cs)
      else if c = 110 then literal [110, 117, 108, 108] .null (c :: cs)
      else (number (c :: cs)).map (fun r => (.num r.1, r.2))

/-- The elements of a non-empty array up to the closing bracket (`stateEndValue`). -/
def elements : (fuel depth : Nat) → Bytes → Option (List Json × Bytes)
  | 0, _, _ => none
  | n + 1, d, bs =>
    match value n d bs with
    | none => none
    | some (j, rest) =>
      match skip rest with
      | [] => none
      | c :: rest =>
        if c = 44 then (elements n d rest).map (fun r => (j :: r.1, r.2))
        else if c = 93 then some ([j], rest)
        else none

/-- The members of a non-empty object up to the closing brace (`stateBeginString`, `stateEndValue`). -/
def members : (fuel depth : Nat) → Bytes → Option (List (String × Json) × Bytes)
  | 0, _, _ => none
  | n + 1, d, bs =>
    match skip bs with
    | [] => none
    | q :: cs =>
      if q = 34 then
        match strBody cs with
        | none => none
        | some (key, rest) =>
          match skip rest with
          | [] => none
          | c :: rest =>
            if c = 58 then
              match value n d rest with
              | none => none
              | some (j, rest) =>
                match skip rest with
                | [] => none
                | c :: rest =>
                  if c = 44 then (members n d rest).map (fun r => ((String.ofList (chars key), j) :: r.1, r.2))
                  else if c = 125 then some ([(String.ofList (chars key), j)], rest)
                  else none
            else none
      else none

end

/-- The whole text: one value with white space around it (`checkValid`, `stateEndTop`). -/
def parse (bs : Bytes) : Option Json :=
  match value (bs.length + 1) maxDepth bs with
  | none => none
  | some (j, rest) => if skip rest = [] then some j else none

end Goslide.Json

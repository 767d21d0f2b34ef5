import Verif.Spec.Json
/-
A configuration written as a JSON text.
-/
namespace Goslide.Spec.Json
open Configuration
variable {F : Type}

/-- A lower case hexadecimal digit. -/
def hexDigit (v : Nat) : UInt8 := UInt8.ofNat (if v < 10 then 48 + v else 87 + v)

/-- A character inside a string literal: quotes, backslashes and control characters are escaped. -/
def escapeChar (c : Char) : Bytes :=
  if c = '"' then [92, 34] else if c = '\\' then [92, 92]
  else if c.toNat < 32 then [92, 117, 48, 48, hexDigit (c.toNat / 16), hexDigit (c.toNat % 16)]
  else String.utf8EncodeChar c

/-- A string literal. -/
def quote (cs : List Char) : Bytes := 34 :: cs.flatMap escapeChar ++ [34]

/-- An integer. -/
def showInt (n : Int) : Bytes := if n < 0 then 45 :: showNat n.natAbs else showNat n.natAbs

/-- An array. -/
def showArray (l : List Bytes) : Bytes := 91 :: joinWith 44 l ++ [93]

/-- The text `t` writes the field value `v` (`text` gives the characters of strings, `showFloat` writes numbers). -/
def showVal (text : Bytes → List Char) (showFloat : F → Bytes) : Val F → Bytes
  | .ints l => showArray (l.map showInt)
  | .floats l => showArray (l.map showFloat)
  | .int n => showInt n
  | .int8 n => showInt n
  | .float x => showFloat x
  | .str s => quote (text s)
  | .bool b => if b then bytes "true" else bytes "false"

/-- A configuration as a JSON object with all fields. -/
def showConfig (text : Bytes → List Char) (showFloat : F → Bytes) (c : Config F) : Bytes :=
  123 :: joinWith 44 (allFields.map (fun f => quote f.name.toList ++ 58 :: showVal text showFloat (c.get f))) ++ [125]

/-- Values that can be written: integers of their types, floats that are read back, strings in UTF-8. -/
def Writable (parseFloat : Bytes → Option F) (text : Bytes → List Char) (showFloat : F → Bytes) : Val F → Prop
  | .ints l => ∀ n ∈ l, -(2 : Int) ^ 63 ≤ n ∧ n < (2 : Int) ^ 63
  | .floats l => ∀ x ∈ l, Number (showFloat x) ∧ parseFloat (showFloat x) = some x
  | .int n => -(2 : Int) ^ 63 ≤ n ∧ n < (2 : Int) ^ 63
  | .int8 n => -128 ≤ n ∧ n ≤ 127
  | .float x => Number (showFloat x) ∧ parseFloat (showFloat x) = some x
  | .str s => (text s).flatMap String.utf8EncodeChar = s
  | .bool _ => True

end Goslide.Spec.Json

import Verif.Spec.Configuration
/-
The grammar of JSON (RFC 8259), as relations between texts and values. Written with concatenation; no parsing functions.
-/
namespace Goslide.Spec.Json
open Configuration

/-- White space. -/
def White (w : Bytes) : Prop := ∀ c ∈ w, c = 32 ∨ c = 9 ∨ c = 13 ∨ c = 10

/-- One or more digits. -/
def Digits (ds : Bytes) : Prop := ds ≠ [] ∧ ∀ c ∈ ds, IsDigit c

/-- `lit` is a number: a minus or none, digits without superfluous zeros in front, a fraction or none, an exponent or none. -/
def Number (lit : Bytes) : Prop :=
  ∃ sign int frac exp, lit = sign ++ int ++ frac ++ exp ∧ (sign = [] ∨ sign = [45]) ∧
    (int = [48] ∨ (Digits int ∧ int.head? ≠ some 48)) ∧
    (frac = [] ∨ ∃ ds, frac = 46 :: ds ∧ Digits ds) ∧
    (exp = [] ∨ ∃ e s ds, exp = e :: s ++ ds ∧ (e = 101 ∨ e = 69) ∧ (s = [] ∨ s = [43] ∨ s = [45]) ∧ Digits ds)

/-- The value of a hexadecimal digit. -/
def Hex (c : UInt8) (v : Nat) : Prop :=
  (v < 10 ∧ c.toNat = 48 + v) ∨ (10 ≤ v ∧ v < 16 ∧ (c.toNat = 87 + v ∨ c.toNat = 55 + v))

/-- `t` is the escape of the 16-bit code `n`: a backslash, `u`, four hexadecimal digits. -/
def Code (t : Bytes) (n : Nat) : Prop :=
  ∃ h1 h2 h3 h4 a b c d, t = [92, 117, h1, h2, h3, h4] ∧ Hex h1 a ∧ Hex h2 b ∧ Hex h3 c ∧ Hex h4 d ∧ n = a * 4096 + b * 256 + c * 16 + d

/-- High and low surrogates of UTF-16. -/
def High (n : Nat) : Prop := 0xD800 ≤ n ∧ n < 0xDC00
/-- Low surrogates. -/
def Low (n : Nat) : Prop := 0xDC00 ≤ n ∧ n < 0xE000

/-- The escapes of one letter. -/
def escapes : List (UInt8 × Char) := [(98, '\x08'), (102, '\x0c'), (110, '\n'), (114, '\r'), (116, '\t'), (92, '\\'), (47, '/'), (34, '"')]

/-- The inside `raw` of a string literal stands for the characters `cs`. -/
inductive Str : Bytes → List Char → Prop
  | nil : Str [] []
  /-- a character in UTF-8 -/
  | char (c : Char) (raw : Bytes) (cs : List Char) : 32 ≤ c.toNat → c ≠ '"' → c ≠ '\\' → Str raw cs → Str (String.utf8EncodeChar c ++ raw) (c :: cs)
  /-- an escape of one letter -/
  | short (e : UInt8) (c : Char) (raw : Bytes) (cs : List Char) : (e, c) ∈ escapes → Str raw cs → Str (92 :: e :: raw) (c :: cs)
  /-- a code that is a character -/
  | code (t : Bytes) (n : Nat) (raw : Bytes) (cs : List Char) : Code t n → ¬ High n → ¬ Low n → Str raw cs → Str (t ++ raw) (Char.ofNat n :: cs)
  /-- a surrogate pair -/
  | pair (t1 t2 : Bytes) (n1 n2 : Nat) (raw : Bytes) (cs : List Char) : Code t1 n1 → Code t2 n2 → High n1 → Low n2 → Str raw cs →
      Str (t1 ++ t2 ++ raw) (Char.ofNat (0x10000 + (n1 - 0xD800) * 0x400 + (n2 - 0xDC00)) :: cs)
  /-- a surrogate that is not part of a pair is replaced by U+FFFD -/
  | lone (t : Bytes) (n : Nat) (raw : Bytes) (cs : List Char) : Code t n → High n ∨ Low n →
      (High n → ¬ ∃ t2 n2 raw2, raw = t2 ++ raw2 ∧ Code t2 n2 ∧ Low n2) → Str raw cs → Str (t ++ raw) ('�' :: cs)
  /-- a byte that begins no character is replaced by U+FFFD -/
  | invalid (b : UInt8) (raw : Bytes) (cs : List Char) : (¬ ∃ c rest, b :: raw = String.utf8EncodeChar c ++ rest) → Str raw cs →
      Str (b :: raw) ('�' :: cs)

mutual

/-- `t`, which begins and ends without white space, is the value `j`, nested at most `d` levels deep. -/
inductive Text : (d : Nat) → (t : Bytes) → Json → Prop
  | null (d : Nat) : Text d (bytes "null") .null
  | true (d : Nat) : Text d (bytes "true") (.bool .true)
  | false (d : Nat) : Text d (bytes "false") (.bool .false)
  | num (d : Nat) (lit : Bytes) : Number lit → Text d lit (.num lit)
  | str (d : Nat) (raw : Bytes) (cs : List Char) : Str raw cs → Text d (34 :: raw ++ [34]) (.str (cs.flatMap String.utf8EncodeChar))
  | emptyArr (d : Nat) (w : Bytes) : White w → Text (d + 1) (91 :: w ++ [93]) (.arr [])
  | arr (d : Nat) (bs : Bytes) (js : List Json) : Elements d bs js → Text (d + 1) (91 :: bs ++ [93]) (.arr js)
  | emptyObj (d : Nat) (w : Bytes) : White w → Text (d + 1) (123 :: w ++ [125]) (.obj [])
  | obj (d : Nat) (bs : Bytes) (kvs : List (String × Json)) : Members d bs kvs → Text (d + 1) (123 :: bs ++ [125]) (.obj kvs)

/-- Values separated by commas. -/
inductive Elements : (d : Nat) → (bs : Bytes) → List Json → Prop
  | one (d : Nat) (w1 t w2 : Bytes) (j : Json) : White w1 → Text d t j → White w2 → Elements d (w1 ++ t ++ w2) [j]
  | more (d : Nat) (w1 t w2 bs : Bytes) (j : Json) (js : List Json) : White w1 → Text d t j → White w2 → Elements d bs js →
      Elements d (w1 ++ t ++ w2 ++ 44 :: bs) (j :: js)

/-- Members `"key": value` separated by commas. -/
inductive Members : (d : Nat) → (bs : Bytes) → List (String × Json) → Prop
  | one (d : Nat) (w1 raw w2 w3 t w4 : Bytes) (cs : List Char) (j : Json) : White w1 → Str raw cs → White w2 → White w3 → Text d t j → White w4 →
      Members d (w1 ++ 34 :: raw ++ 34 :: w2 ++ 58 :: w3 ++ t ++ w4) [(String.ofList cs, j)]
  | more (d : Nat) (w1 raw w2 w3 t w4 bs : Bytes) (cs : List Char) (j : Json) (kvs : List (String × Json)) : White w1 → Str raw cs → White w2 → White w3 →
      Text d t j → White w4 → Members d bs kvs → Members d (w1 ++ 34 :: raw ++ 34 :: w2 ++ 58 :: w3 ++ t ++ w4 ++ 44 :: bs) ((String.ofList cs, j) :: kvs)

end

/-- `bs` is a JSON text: a value with white space around it, at most 10000 levels deep. -/
def Document (bs : Bytes) (j : Json) : Prop := ∃ w1 t w2, White w1 ∧ White w2 ∧ Text 10000 t j ∧ bs = w1 ++ t ++ w2

end Goslide.Spec.Json

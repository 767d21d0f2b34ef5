import Verif.Spec.Xcrepo
import Verif.Spec.Json
import Verif.Go.Binary64
/-
What the texts of floating-point numbers mean: the grammar of Go's floating-point literals, as relations.
-/
namespace Goslide.Spec.Float
open Binary64

/-- `c` is the digit `v` in base `b` (10 or 16). -/
def DigitOf (b : Nat) (c : UInt8) (v : Nat) : Prop := v < b ∧ Spec.Json.Hex c v

/-- Digits in base `b` (none for 0). -/
inductive Numeral (b : Nat) : Bytes → Nat → Prop
  | nil : Numeral b [] 0
  | snoc (ds : Bytes) (n : Nat) (c : UInt8) (v : Nat) : Numeral b ds n → DigitOf b c v → Numeral b (ds ++ [c]) (n * b + v)

/-- Digits with or without a point, at least one. -/
def Mantissa (b : Nat) (t : Bytes) (v : ℚ) : Prop :=
  ∃ int frac m, (t = int ++ 46 :: frac ∨ (t = int ∧ frac = [])) ∧ int ++ frac ≠ [] ∧ Numeral b (int ++ frac) m ∧ v = (m : ℚ) / (b : ℚ) ^ frac.length

/-- An exponent with one of two letters: a sign or none and the digits of `n`. -/
def Exponent (small large : UInt8) (t : Bytes) (n : Nat) (e : ℤ) : Prop :=
  ∃ c s ds, t = c :: s ++ ds ∧ (c = small ∨ c = large) ∧ ds ≠ [] ∧ Numeral 10 ds n ∧
    (((s = [] ∨ s = [43]) ∧ e = n) ∨ (s = [45] ∧ e = -(n : ℤ)))

/-- A number without sign and underscores: its value `v`, and the digits `n` of its exponent. -/
inductive Magnitude : Bytes → ℚ → Nat → Prop
  | plain (t : Bytes) (v : ℚ) : Mantissa 10 t v → Magnitude t v 0
  | dec (t x : Bytes) (v : ℚ) (n : Nat) (e : ℤ) : Mantissa 10 t v → Exponent 101 69 x n e → Magnitude (t ++ x) (v * 10 ^ e) n
  | hex (p : UInt8) (t x : Bytes) (v : ℚ) (n : Nat) (e : ℤ) : p = 120 ∨ p = 88 → Mantissa 16 t v → Exponent 112 80 x n e →
      Magnitude (48 :: p :: t ++ x) (v * 2 ^ e) n

/-- A hexadecimal number. -/
def HexPrefix (t : Bytes) : Prop := ∃ p r, t = 48 :: p :: r ∧ (p = 120 ∨ p = 88)

/-- A character between which underscores may stand. -/
def DigitIn (t : Bytes) (c : UInt8) : Prop := (∃ v, DigitOf 10 c v) ∨ (HexPrefix t ∧ ∃ v, DigitOf 16 c v)

/-- Every underscore has a digit or the prefix before it and a digit behind it. -/
def Separated (t : Bytes) : Prop :=
  ∀ a b, t = a ++ 95 :: b → ((∃ a' c, a = a' ++ [c] ∧ DigitIn t c) ∨ (HexPrefix t ∧ a.length = 2)) ∧ ∃ c b', b = c :: b' ∧ DigitIn t c

/-- `bs` is a number: a sign or none, then a magnitude in which underscores may separate digits. -/
def Number (bs : Bytes) (neg : Bool) (v : ℚ) (n : Nat) : Prop :=
  ∃ s t, bs = s ++ t ∧ (((s = [] ∨ s = [43]) ∧ neg = false) ∨ (s = [45] ∧ neg = true)) ∧ Separated t ∧ Magnitude (t.filter (· != 95)) v n

/-- Equal but for the case of letters; `w` is in lower case. -/
def SameWord : Bytes → Bytes → Prop := All2 (fun c l => c = l ∨ (97 ≤ l ∧ l ≤ 122 ∧ c = l - 32))

/-- The words for values that are no numbers. -/
inductive Word : Bytes → B64 → Prop
  | nan (t : Bytes) : SameWord t (bytes "nan") → Word t .nan
  | inf (s t : Bytes) (neg : Bool) : (((s = [] ∨ s = [43]) ∧ neg = false) ∨ (s = [45] ∧ neg = true)) →
      SameWord t (bytes "inf") ∨ SameWord t (bytes "infinity") → Word (s ++ t) (.inf neg)

/-- A decimal text of exactly this number: the digits of `|q|·10^k` and the exponent `-k`, where `2^k` is the denominator. -/
def showExact (q : ℚ) : Bytes :=
  let k := Nat.log 2 q.den
  (if q < 0 then [45] else []) ++ showNat (q.num.natAbs * 5 ^ k) ++ [101, 45] ++ showNat k

/-- Texts for all values. -/
def show64 : B64 → Bytes
  | .nan => bytes "NaN"
  | .inf neg => if neg then bytes "-Inf" else bytes "+Inf"
  | .zero neg => if neg then bytes "-0" else bytes "0"
  | .fin q _ => showExact q

end Goslide.Spec.Float

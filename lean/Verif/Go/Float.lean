import Verif.Go.Basic
/-
`float64` as an abstract type: the operations the code uses, with no laws.
Laws needed by individual theorems are separate classes, see `FloatOrder`.
-/
namespace Goslide

/-- The `float64` operations used by goslide.
`const q` is the float64 constant obtained from the (exact) Go constant `q`,
`floorInt x` is `int(math.Floor(x))` and `ceilInt x` is `int(math.Ceil(x))`; for NaN, infinities and
values outside the `int` range their result is implementation-specific in Go. -/
class GoFloat (F : Type) where
  const : Rat → F
  add : F → F → F
  sub : F → F → F
  mul : F → F → F
  div : F → F → F
  neg : F → F
  lt : F → F → Bool
  le : F → F → Bool
  eq : F → F → Bool
  floorInt : F → Int
  ceilInt : F → Int
  exp : F → F
  sqrt : F → F
  pow : F → F → F

namespace GoFloat
variable {F : Type} [GoFloat F]
/-- Float of a Go integer (`float64(n)`) or of an integer constant. -/
def ofInt (n : Int) : F := const (n : Rat)
/-- `0.0` -/
def zero : F := const 0
/-- `1.0` -/
def one : F := const 1
end GoFloat

/-- Index/value pair: index_value/index_value.go:7-10. -/
structure Pair (F : Type) where
  Index : Int
  Value : F
deriving Repr, DecidableEq

/-- The order laws of IEEE-754 comparison that some theorems need:
`lt` is a strict weak order on the numbers that are not NaN, and is false as soon as
one side is NaN. -/
class FloatOrder (F : Type) [GoFloat F] where
  isNaN : F → Bool
  lt_nan_left : ∀ a b : F, isNaN a = true → GoFloat.lt a b = false
  lt_nan_right : ∀ a b : F, isNaN b = true → GoFloat.lt a b = false
  lt_irrefl : ∀ a : F, GoFloat.lt a a = false
  lt_trans : ∀ a b c : F, GoFloat.lt a b = true → GoFloat.lt b c = true → GoFloat.lt a c = true
  lt_weak : ∀ a b c : F, isNaN c = false → GoFloat.lt a b = true →
    GoFloat.lt a c = true ∨ GoFloat.lt c b = true

/-- Integer division through floats: for integers up to 2^53 (exactly representable) the quotient,
once rounded to float64, still has the exact floor and ceiling. -/
class FloatIntDiv (F : Type) [GoFloat F] : Prop where
  floor_div : ∀ a b : Int, 0 ≤ a → a ≤ 2 ^ 53 → 0 < b → b ≤ 2 ^ 53 →
    GoFloat.floorInt (GoFloat.div (GoFloat.ofInt a : F) (GoFloat.ofInt b)) = a / b
  ceil_div : ∀ a b : Int, 0 ≤ a → a ≤ 2 ^ 53 → 0 < b → b ≤ 2 ^ 53 →
    GoFloat.ceilInt (GoFloat.div (GoFloat.ofInt a : F) (GoFloat.ofInt b)) = -(-a / b)

/-- Adding or subtracting `+0` changes nothing, except for `-0 + 0`. `NotNegZero` are the values other
than `-0`; sums and differences that start from such a value never become `-0` (round to nearest). -/
class FloatZero (F : Type) [GoFloat F] where
  NotNegZero : F → Prop
  zero_ok : NotNegZero (GoFloat.zero : F)
  add_ok : ∀ s v : F, NotNegZero s → NotNegZero (GoFloat.add s v)
  sub_ok : ∀ s v : F, NotNegZero s → NotNegZero (GoFloat.sub s v)
  add_zero : ∀ s : F, NotNegZero s → GoFloat.add s GoFloat.zero = s
  sub_zero : ∀ s : F, NotNegZero s → GoFloat.sub s GoFloat.zero = s

end Goslide

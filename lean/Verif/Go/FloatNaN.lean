import Verif.Go.Float
/-
NaN in IEEE-754 arithmetic.
-/
namespace Goslide

/-- Every operation on a NaN gives a NaN, and a NaN is not below or equal to anything. -/
class FloatNaN (F : Type) [GoFloat F] [FloatOrder F] : Prop where
  add_left : ∀ a b : F, FloatOrder.isNaN a = true → FloatOrder.isNaN (GoFloat.add a b) = true
  add_right : ∀ a b : F, FloatOrder.isNaN b = true → FloatOrder.isNaN (GoFloat.add a b) = true
  sub_left : ∀ a b : F, FloatOrder.isNaN a = true → FloatOrder.isNaN (GoFloat.sub a b) = true
  sub_right : ∀ a b : F, FloatOrder.isNaN b = true → FloatOrder.isNaN (GoFloat.sub a b) = true
  mul_left : ∀ a b : F, FloatOrder.isNaN a = true → FloatOrder.isNaN (GoFloat.mul a b) = true
  mul_right : ∀ a b : F, FloatOrder.isNaN b = true → FloatOrder.isNaN (GoFloat.mul a b) = true
  div_left : ∀ a b : F, FloatOrder.isNaN a = true → FloatOrder.isNaN (GoFloat.div a b) = true
  neg : ∀ a : F, FloatOrder.isNaN a = true → FloatOrder.isNaN (GoFloat.neg a) = true
  exp : ∀ a : F, FloatOrder.isNaN a = true → FloatOrder.isNaN (GoFloat.exp a) = true
  le_left : ∀ a b : F, FloatOrder.isNaN a = true → GoFloat.le a b = false

end Goslide

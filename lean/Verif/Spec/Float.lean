import Mathlib.Algebra.Order.Ring.Rat
import Mathlib.Algebra.Order.Group.Abs
import Mathlib.Algebra.Order.Field.Rat
/-! Specification: the float closest to a number. -/
namespace Spec

/-- A finite IEEE 754 binary64 number. -/
def IsDouble (x : ℚ) : Prop := ∃ m e : ℤ, |m| < 2 ^ 53 ∧ -1074 ≤ e ∧ e ≤ 971 ∧ x = m * 2 ^ e

/-- `f` is a float and every other float is further away from `x`. -/
def Closest (x f : ℚ) : Prop := IsDouble f ∧ ∀ g, IsDouble g → g ≠ f → |f - x| < |g - x|

end Spec

import Verif.Model.Msg
/-!
# Scaled values as floats

The float that `float_t.deserialize` computes from mantissa and precision (types.py:311-320): Python converts the mantissa to a float and divides it by `math.pow(10, precision)`.
Floats are IEEE 754 binary64 numbers, rounded to nearest, ties to even. They are kept as the rational numbers they stand for.

Simplifications: subnormal numbers, overflow and infinities are left out; no value of a message comes near them. `math.pow(10, n)` is exact for the precisions there are (0..7).
-/
namespace Model.Float

/-- The natural number nearest to `n / d`, ties to even. -/
def halfEven (n d : Nat) : Nat :=
  if 2 * (n % d) < d then n / d
  else if d < 2 * (n % d) then n / d + 1
  else if n / d % 2 = 0 then n / d else n / d + 1

/-- The exponent `e` for which `n / d` is `t * 2^e` with `2^52 ≤ t < 2^53`. -/
def expo (n d : Nat) : Int :=
  let e : Int := (n.log2 : Int) - d.log2 - 53
  if n * 2 ^ (-e).toNat < 2 ^ 53 * (d * 2 ^ e.toNat) then e else e + 1

/-- The positive number `n / d`, rounded. -/
def roundPos (n d : Nat) : Rat :=
  let e := expo n d
  (halfEven (n * 2 ^ (-e).toNat) (d * 2 ^ e.toNat) : Rat) * 2 ^ e

/-- A number, rounded to a float. -/
def fl (x : Rat) : Rat :=
  if x.num = 0 then 0
  else if x.num < 0 then -roundPos x.num.natAbs x.den
  else roundPos x.num.natAbs x.den

/-- types.py:317-319: `int / float` converts the `int` first. -/
def value (mantissa : Int) (precision : Nat) : Rat := fl (fl mantissa / 10 ^ precision)

/-- The float that a decoded scaled value is. -/
def ofVal : Val → Option Rat
  | .float m p _ _ => some (value m p)
  | _ => none

end Model.Float

/-!
# Specification vocabulary: bit strings

Independent of the model.  A bit string is a `List Bool`, most significant bit
first.  `toBits n v` is the `n`-bit binary numeral of `v`, `ofBits` is its value
and `bitsOf` is the bit string of a byte string.
-/
namespace Spec

/-- Byte strings. -/
abbrev Bytes := List UInt8

/-- The `n` low bits of `v`, most significant bit first. -/
def toBits : Nat → Nat → List Bool
  | 0, _ => []
  | n + 1, v => (v / 2 ^ n % 2 == 1) :: toBits n v

/-- The number spelled by a bit string, most significant bit first. -/
def ofBits : List Bool → Nat
  | [] => 0
  | b :: bs => (if b then 2 ^ bs.length else 0) + ofBits bs

/-- The bits of a byte string, each byte most significant bit first. -/
def bitsOf (bs : Bytes) : List Bool := bs.flatMap fun b => toBits 8 b.toNat

/-- Big-endian value of a byte string. -/
def beNat : Bytes → Nat
  | [] => 0
  | b :: bs => b.toNat * 256 ^ bs.length + beNat bs

/-- Two's complement reading of an `n`-bit number. -/
def signedOf (n v : Nat) : Int := if 2 * v < 2 ^ n then (v : Int) else (v : Int) - 2 ^ n

/-- The `n`-bit two's complement numeral of an integer. -/
def toBitsZ (n : Nat) (v : Int) : List Bool := toBits n (v % 2 ^ n).toNat

end Spec

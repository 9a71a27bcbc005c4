import Verif.Spec.Bits
/-!
# Specification vocabulary: decimal text
-/
namespace Spec

/-- The character of a decimal digit. -/
def digitChar (d : Nat) : Char := Char.ofNat (48 + d)

/-- `n` in exactly `k` decimal digits, most significant first. -/
def fixedDec (k n : Nat) : List Char := (List.range k).map fun i => digitChar (n / 10 ^ (k - 1 - i) % 10)

/-- Consecutive 16 bit big-endian words of a byte string of even length. -/
def words : Bytes → List Nat
  | a :: b :: l => (a.toNat * 256 + b.toNat) :: words l
  | _ => []

/-- Texts joined with a separator character. -/
def joined (sep : Char) : List (List Char) → List Char
  | [] => []
  | [s] => s
  | s :: l => s ++ sep :: joined sep l

/-- The printed form of a DSK: groups of five decimal digits separated by dashes. -/
def dskPrinted (key : Bytes) : List Char := joined '-' ((words key).map (fixedDec 5))

/-- The code points a text can consist of (Unicode scalar values). -/
def IsScalar (c : Nat) : Prop := c < 0xD800 ∨ (0xE000 ≤ c ∧ c < 0x110000)

/-- The UTF-8 encoding of a code point. -/
def utf8 (c : Nat) : Bytes :=
  if c < 0x80 then [UInt8.ofNat c]
  else if c < 0x800 then [UInt8.ofNat (0xC0 + c / 64), UInt8.ofNat (0x80 + c % 64)]
  else if c < 0x10000 then [UInt8.ofNat (0xE0 + c / 4096), UInt8.ofNat (0x80 + c / 64 % 64), UInt8.ofNat (0x80 + c % 64)]
  else [UInt8.ofNat (0xF0 + c / 262144), UInt8.ofNat (0x80 + c / 4096 % 64), UInt8.ofNat (0x80 + c / 64 % 64), UInt8.ofNat (0x80 + c % 64)]

/-- The UTF-8 encoding of a text. -/
def utf8Text : List Nat → Bytes
  | [] => []
  | c :: l => utf8 c ++ utf8Text l

end Spec

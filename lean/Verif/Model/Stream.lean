import Verif.Model.Py
/-!
# `pyzwave/types.py` lines 6-87: BitStreamReader and BitStreamWriter
-/
namespace Model
open Spec (Bytes)

/-- `BitStreamReader` (types.py:6-11): the buffer `_value` and the position `_start` in bits. -/
structure Reader where
  data : Bytes
  start : Nat
  deriving DecidableEq, Repr

namespace Reader

/-- types.py:9-11 -/
def new (data : Bytes) : Reader := ⟨data, 0⟩

/-- types.py:13-15 (`length` bits; never called with a negative number except through `valueZ`). -/
def advance (r : Reader) (length : Nat) : Reader := { r with start := r.start + length }

/-- types.py:34-37.  `int(self._start / 8)` is the quotient (positions stay far below 2^53,
so the float division is exact).  Can be negative after `remaining()`. -/
def bytesLeft (r : Reader) : Int := (r.data.length : Int) - (r.start / 8 : Nat)

/-- types.py:54-61 with a non-negative `size`. -/
def value (r : Reader) (size : Nat) (advance : Bool := true) : Py (Bytes × Reader) :=
  let startByte := r.start / 8
  let r' := if advance then r.advance (size * 8) else r
  if startByte + size > r.data.length then .error .eof
  else .ok ((r.data.drop startByte).take size, r')

/-- types.py:54-61 with an arbitrary integer `size`.  A negative size moves the position
backwards.  Simplification: a position that would become negative is clamped to 0; both
callers (`HeaderExtension.deserialize`, `NodeAddStatus.parse_commandClass`) have consumed
more bytes than they go back. -/
def valueZ (r : Reader) (size : Int) : Py (Bytes × Reader) :=
  let startByte : Int := (r.start / 8 : Nat)
  let r' : Reader := { r with start := ((r.start : Int) + size * 8).toNat }
  if startByte + size > r.data.length then .error .eof
  else .ok (pySlice r.data startByte (startByte + size), r')

/-- types.py:30-32.  `int.from_bytes(value(1), "little")`. -/
def byte (r : Reader) (advance : Bool := true) : Py (UInt8 × Reader) :=
  match r.value 1 advance with
  | .error e => .error e
  | .ok ([b], r') => .ok (b, r')
  | .ok (_, r') => .ok (0, r')   -- unreachable: `value 1` returns one byte

/-- types.py:39-41 -/
def peekByte (r : Reader) : Py UInt8 :=
  match r.byte false with
  | .error e => .error e
  | .ok (b, _) => .ok b

/-- types.py:43-45 -/
def peekValue (r : Reader) (size : Nat) : Py Bytes :=
  match r.value size false with
  | .error e => .error e
  | .ok (b, _) => .ok b

/-- types.py:21-28.  `byte >> 8 - size` raises ValueError for `size > 8`. -/
def bits (r : Reader) (size : Nat) (advance : Bool := true) : Py (Nat × Reader) :=
  let startBit := r.start % 8
  match r.peekByte with
  | .error e => .error e
  | .ok b =>
    let byte := (b.toNat <<< startBit) &&& 0xFF
    if size > 8 then .error .value
    else
      let byte := (byte >>> (8 - size)) &&& 0xFF
      .ok (byte, if advance then r.advance size else r)

/-- types.py:17-19 -/
def bit (r : Reader) (advance : Bool := true) : Py (Nat × Reader) := r.bits 1 advance

/-- types.py:47-52.  Note that the position moves by the length of the *whole* buffer. -/
def remaining (r : Reader) (advance : Bool := true) : Bytes × Reader :=
  let startByte := r.start / 8
  (r.data.drop startByte, if advance then r.advance (r.data.length * 8) else r)

end Reader

/-- Python `int.from_bytes(b, "big", signed=False)`. -/
def fromBytesBE (b : Bytes) : Nat := b.foldl (fun acc x => acc * 256 + x.toNat) 0

/-- Python `int.from_bytes(b, "big", signed=True)`. -/
def fromBytesBEs (b : Bytes) : Int :=
  let u := fromBytesBE b
  if b.isEmpty then 0
  else if u < 2 ^ (8 * b.length - 1) then (u : Int) else (u : Int) - 2 ^ (8 * b.length)

/-- `size` big-endian bytes of a natural number, most significant first. -/
def natToBE : Nat → Nat → Bytes
  | 0, _ => []
  | n + 1, v => UInt8.ofNat (v / 256 ^ n % 256) :: natToBE n v

/-- Python `v.to_bytes(size, "big", signed=signed)`; raises OverflowError if `v` does not fit. -/
def toBytesBE (v : Int) (size : Nat) (signed : Bool) : Py Bytes :=
  if signed then
    if size = 0 then (if v = 0 then .ok [] else .error .overflow)
    else if -(2 ^ (8 * size - 1) : Int) ≤ v ∧ v < 2 ^ (8 * size - 1) then
      .ok (natToBE size (v % 2 ^ (8 * size)).toNat)
    else .error .overflow
  else
    if 0 ≤ v ∧ v < 2 ^ (8 * size) then .ok (natToBE size v.toNat)
    else .error .overflow

/-- `BitStreamWriter(bytearray)` (types.py:64-69). -/
structure Writer where
  data : Bytes
  start : Nat
  deriving DecidableEq, Repr

namespace Writer

/-- types.py:67-69 -/
def new : Writer := ⟨[], 0⟩

/-- types.py:71-81.  `value << 8 - start - size` raises ValueError if the shift is negative;
storing a number outside 0..255 in a bytearray raises ValueError (also for negative values,
because `byte | negative` is negative). -/
def addBits (w : Writer) (value : Int) (size : Nat) : Py Writer :=
  let go (pre : Bytes) (byte : Nat) : Py Writer :=
    if w.start + size > 8 then .error .value
    else if value < 0 then .error .value
    else
      let new := byte ||| (value.toNat <<< (8 - w.start - size))
      if new > 255 then .error .value
      else .ok ⟨pre ++ [UInt8.ofNat new], (w.start + size) % 8⟩
  if w.start = 0 then go w.data 0
  else match w.data.getLast? with
    | none => .error .index
    | some b => go w.data.dropLast b.toNat

/-- `bytearray.extend` / `bytearray.append`: does not touch `_start`. -/
def extend (w : Writer) (b : Bytes) : Writer := { w with data := w.data ++ b }

/-- types.py:83-87 (always called with `endian="big"`). -/
def addBytes (w : Writer) (value : Int) (size : Nat) (signed : Bool) : Py Writer :=
  match toBytesBE value size signed with
  | .error e => .error e
  | .ok b => .ok ⟨w.data ++ b, 0⟩

end Writer
end Model

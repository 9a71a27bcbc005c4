import Verif.Spec.Bits
/-!
# Specification vocabulary: repeated records in messages
-/
namespace Spec

/-- One record of an association group info report. -/
structure GroupRec where
  id : UInt8
  mode : UInt8
  profile : UInt8 × UInt8
  reserved : UInt8
  event : UInt8 × UInt8

/-- Its seven bytes. -/
def GroupRec.wire (g : GroupRec) : Bytes := [g.id, g.mode, g.profile.1, g.profile.2, g.reserved, g.event.1, g.event.2]

/-- Smart start metadata entries (type, critical bit, payload) on the wire: the type in the upper seven bits, the critical
bit in the lowest, then the payload length and the payload. -/
def metaWire (l : List (Nat × Bool × Bytes)) : Bytes :=
  l.flatMap fun (t, c, b) => UInt8.ofNat (t * 2 + c.toNat) :: UInt8.ofNat b.length :: b

/-- The payload of the last entry of a type. -/
def lastEntry (l : List (Nat × Bool × Bytes)) (t : Nat) : Option Bytes :=
  (l.filter (fun e => e.1 = t)).getLast?.map (·.2.2)

end Spec

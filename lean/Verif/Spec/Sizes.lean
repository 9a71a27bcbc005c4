import Verif.Spec.Wire
/-!
# Specification vocabulary: how long a frame is

The size of the part of a frame that every message of its class has, and whether more may follow.
-/
namespace Spec

/-- Bits a slot always takes. A key on the wire has 16 bytes. -/
def Slot.fixedBits : Slot → Nat
  | .num _ n => n
  | .flag _ => 1
  | .zero n => n
  | .dsk _ => 128
  | .ipv6 _ => 128
  | .rest _ => 0
  | .nodes _ => 0

/-- A slot that takes everything up to the end of the frame. -/
def Slot.isOpen : Slot → Bool
  | .rest _ => true
  | .nodes _ => true
  | _ => false

/-- Bytes of the fixed part, after the command class and the command. -/
def Layout.fixedBytes (L : Layout) : Nat := (L.slots.map Slot.fixedBits).sum / 8

/-- The last slot takes everything that follows. -/
def Layout.isOpen (L : Layout) : Bool := L.slots.any Slot.isOpen

/-- The last slot is a list of association targets. -/
def Layout.hasTargets (L : Layout) : Bool := L.slots.any fun s => match s with | .nodes _ => true | _ => false

end Spec

import Verif.Model.Codec
import Verif.Spec.Wire
/-!
# Specification arguments as Python values

The only link between the vocabulary of `Spec/Wire.lean` and attribute values of the model.
-/
namespace Model
open Spec

/-- Python value passed for a specification argument: an `int`, `bytes` or a node list. -/
def argVal : Arg → Val
  | .int v => .num .pyint v
  | .bytes b => .bytes b
  | .nodes l => .nodes l

/-- Keyword arguments of a constructor call. -/
def argKw (a : Args) : String → Option Val := fun n => (a n).map argVal

/-- An attribute value as seen by a user: its integer value, its bytes or its nodes. -/
def valArg : Val → Option Arg
  | .num _ v => some (.int v)
  | .bytes b => some (.bytes b)
  | .dsk b => some (.bytes b)
  | .ipv6 b => some (.bytes b)
  | .nodes l => some (.nodes l)
  | _ => none

/-- What an entry of a maintenance report means: numbers for the route changed flag (0), ack channel (4) and transmit channel (5), one byte each, and for the transmission
time (1), two bytes; the last working route (2) lists up to four repeaters and the speed; other values are uninterpreted bytes. -/
def entryMeaning (ty : Nat) (v : Bytes) : IMEVal :=
  if ty = 0 ∨ ty = 4 ∨ ty = 5 then .num (beNat (v.take 1))
  else if ty = 1 then .num (beNat (v.take 2))
  else if ty = 2 then .route ((["repeater1", "repeater2", "repeater3", "repeater4", "speed"].zip v).map (fun p => (p.1, (p.2.toNat : Int))))
  else .raw v

end Model

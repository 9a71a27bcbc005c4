import Verif.Spec.Bits
/-!
# Specification vocabulary: wire layouts

A layout lists the slots of a message frame after the command class and command byte, in wire
order. It says which bits are on the wire for given argument values, without reference to the
model.
-/
namespace Spec

/-- One slot of a frame. -/
inductive Slot
  | num (name : String) (bits : Nat)   -- unsigned number
  | flag (name : String)               -- one bit, the truth value
  | zero (bits : Nat)                  -- reserved, sent as zero
  | dsk (name : String)                -- a 16 byte DSK (or nothing)
  | ipv6 (name : String)               -- a packed IPv6 address
  | rest (name : String)               -- any number of bytes up to the end of the frame
  | nodes (name : String)              -- association targets up to the end of the frame
  deriving DecidableEq, Repr

structure Layout where
  title : String
  cc : Nat
  cmd : Nat
  slots : List Slot
  deriving DecidableEq, Repr

/-- Argument values. -/
inductive Arg
  | int (v : Int)
  | bytes (b : Bytes)
  | nodes (l : List (Nat × Option Nat))

/-- Keyword arguments. -/
abbrev Args := String → Option Arg

/-- Names of reserved slots. A caller who passes a value for one of these gets what they ask for;
the layouts below describe the calls that do not. -/
def reservedNames : List String := ["-", "_", "zwaveProtocolSpecific"]

/-- The targets without an end point, in order. -/
def plainTargets : List (Nat × Option Nat) → List Nat
  | [] => []
  | (n, none) :: l => n :: plainTargets l
  | (_, some _) :: l => plainTargets l

/-- The targets with an end point, in order. -/
def pointTargets : List (Nat × Option Nat) → List (Nat × Nat)
  | [] => []
  | (_, none) :: l => pointTargets l
  | (n, some e) :: l => (n, e) :: pointTargets l

/-- Association targets on the wire: first the plain node ids, then, if there are any end point
destinations, a zero marker followed by (node, end point) pairs. -/
def nodesWire (l : List (Nat × Option Nat)) : List Nat :=
  plainTargets l ++
    (if pointTargets l = [] then [] else 0 :: (pointTargets l).flatMap fun (n, e) => [n, e])

/-- All numbers in the list fit in a byte. -/
def nodesFit (l : List (Nat × Option Nat)) : Bool :=
  l.all fun (n, e) => n < 256 && e.all (· < 256)

/-- The bits a slot occupies, if the arguments supply a value that fits. -/
def Slot.wire (a : Args) : Slot → Option (List Bool)
  | .num name n => match a name with
    | some (.int v) => if 0 ≤ v ∧ v < 2 ^ n then some (toBits n v.toNat) else none
    | _ => none
  | .flag name => match a name with
    | some (.int v) => some [v % 2 == 1]
    | _ => none
  | .zero n => some (List.replicate n false)
  | .dsk name => match a name with
    | some (.bytes b) => if b.length = 16 ∨ b.length = 0 then some (bitsOf b) else none
    | _ => none
  | .ipv6 name => match a name with
    | some (.bytes b) => if b.length = 16 then some (bitsOf b) else none
    | _ => none
  | .rest name => match a name with
    | some (.bytes b) => some (bitsOf b)
    | none => some []
    | _ => none
  | .nodes name => match a name with
    | some (.nodes l) => if nodesFit l then some ((nodesWire l).flatMap (toBits 8)) else none
    | none => some []
    | _ => none

/-- The bits of consecutive slots. -/
def slotsWire (a : Args) : List Slot → Option (List Bool)
  | [] => some []
  | s :: ss => match s.wire a, slotsWire a ss with
    | some x, some y => some (x ++ y)
    | _, _ => none

/-- The bits of the whole frame. -/
def Layout.wire (L : Layout) (a : Args) : Option (List Bool) :=
  match slotsWire a L.slots with
  | some x => some (toBits 8 L.cc ++ toBits 8 L.cmd ++ x)
  | none => none

/-- Association targets as they read after a trip over the wire: plain targets first. -/
def targetsNormal (l : List (Nat × Option Nat)) : List (Nat × Option Nat) :=
  (plainTargets l).map (fun n => (n, none)) ++ (pointTargets l).map (fun p => (p.1, some p.2))

/-- What the receiver must read for a slot. Reserved slots carry no information. -/
def Slot.readBack (a : Args) : Slot → Option (String × Arg)
  | .num name _ => (a name).map fun x => (name, x)
  | .flag name => match a name with
    | some (.int v) => some (name, .int (v % 2))
    | _ => none
  | .zero _ => none
  | .dsk name => (a name).map fun x => (name, x)
  | .ipv6 name => (a name).map fun x => (name, x)
  | .rest name => match a name with
    | some x => some (name, x)
    | none => some (name, .bytes [])
  | .nodes name => match a name with
    | some (.nodes l) => some (name, .nodes (targetsNormal l))
    | _ => some (name, .nodes [])

/-- Values that the frame format can represent unambiguously: a DSK has 16 bytes, and node id 0 (the
end point marker) is not an association target. -/
def Slot.Unambiguous (a : Args) : Slot → Prop
  | .dsk name => ∀ b, a name = some (.bytes b) → b.length = 16
  | .nodes name => ∀ l, a name = some (.nodes l) → 0 ∉ plainTargets l
  | _ => True

end Spec

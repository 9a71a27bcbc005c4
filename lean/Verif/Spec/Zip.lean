import Verif.Spec.Wire
/-!
# Specification vocabulary: Z/IP packets

Frame format of a Z/IP packet: two id bytes, two flag bytes, the sequence number, the two end points, optionally a
header extension, optionally a command.
-/
namespace Spec

/-- The fixed part of a Z/IP packet. -/
structure ZipHeader where
  ackRequest : Bool := false
  ackResponse : Bool := false
  nackResponse : Bool := false
  nackWaiting : Bool := false
  nackQueueFull : Bool := false
  nackOptionError : Bool := false
  ext : Bool := false          -- a header extension follows
  cmd : Bool := false          -- a Z-Wave command is included
  more : Bool := false
  secure : Bool := false
  seq : Nat
  src : Nat
  dst : Nat
  deriving DecidableEq, Repr

namespace ZipHeader

/-- All numbers fit their fields. -/
def Fits (h : ZipHeader) : Prop := h.seq < 256 ∧ h.src < 128 ∧ h.dst < 128

/-- The first flag byte. -/
def flags0 (h : ZipHeader) : UInt8 :=
  UInt8.ofNat (ofBits [h.ackRequest, h.ackResponse, h.nackResponse, h.nackWaiting, h.nackQueueFull, h.nackOptionError, false, false])

/-- The second flag byte. -/
def flags1 (h : ZipHeader) : UInt8 :=
  UInt8.ofNat (ofBits [h.ext, h.cmd, h.more, h.secure, false, false, false, false])

/-- The seven bytes of the fixed part. -/
def bytes (h : ZipHeader) : Bytes :=
  [0x23, 0x02, h.flags0, h.flags1, UInt8.ofNat h.seq, UInt8.ofNat h.src, UInt8.ofNat h.dst]

/-- The same as keyword arguments. -/
def args (h : ZipHeader) : Args := fun n =>
  let b (x : Bool) : Option Arg := some (.int (if x then 1 else 0))
  if n = "ackRequest" then b h.ackRequest
  else if n = "ackResponse" then b h.ackResponse
  else if n = "nackResponse" then b h.nackResponse
  else if n = "nackWaiting" then b h.nackWaiting
  else if n = "nackQueueFull" then b h.nackQueueFull
  else if n = "nackOptionError" then b h.nackOptionError
  else if n = "headerExtIncluded" then b h.ext
  else if n = "zwCmdIncluded" then b h.cmd
  else if n = "moreInformation" then b h.more
  else if n = "secureOrigin" then b h.secure
  else if n = "seqNo" then some (.int h.seq)
  else if n = "sourceEP" then some (.int h.src)
  else if n = "destEP" then some (.int h.dst)
  else none

end ZipHeader

/-- A header option with its payload. -/
inductive HdrOption
  | delay (b0 b1 b2 : UInt8)                  -- expected delay, signed 24 bit
  | maintenance (entries : List (UInt8 × Bytes))  -- type and value of each entry
  | encapsulation (payload : Bytes)
  deriving Repr

/-- Option type. -/
def HdrOption.code : HdrOption → UInt8
  | .delay .. => 1
  | .maintenance _ => 3
  | .encapsulation _ => 4

/-- Entries of a maintenance report: type, length, value. -/
def entriesWire : List (UInt8 × Bytes) → Bytes
  | [] => []
  | (t, v) :: l => t :: UInt8.ofNat v.length :: (v ++ entriesWire l)

/-- Payload bytes of an option. -/
def HdrOption.payload : HdrOption → Bytes
  | .delay b0 b1 b2 => [b0, b1, b2]
  | .maintenance l => entriesWire l
  | .encapsulation p => p

/-- The option's payload has a length that fits the length byte; entries of a maintenance report have a known type
(0..8) and a value that is long enough for its type (two bytes for the transmission time, one byte for the route
changed flag, the ack channel and the transmit channel). -/
def HdrOption.WellFormed (o : HdrOption) : Prop :=
  o.payload.length < 256 ∧
  match o with
  | .maintenance l => ∀ e ∈ l, e.1.toNat ≤ 8 ∧ e.2.length < 256 ∧
      (e.1 = 1 → 2 ≤ e.2.length) ∧ (e.1 = 0 ∨ e.1 = 4 ∨ e.1 = 5 → 1 ≤ e.2.length)
  | _ => True

/-- An option on the wire, with its `critical` bit. -/
def optionWire (critical : Bool) (o : HdrOption) : Bytes :=
  ((if critical then 0x80 else 0) + o.code) :: UInt8.ofNat o.payload.length :: o.payload

/-- A list of options on the wire. -/
def optionsWire : List (Bool × HdrOption) → Bytes
  | [] => []
  | (c, o) :: l => optionWire c o ++ optionsWire l

/-- The value of the last entry of type `ty` in a maintenance report. -/
def lastIME (ty : Nat) : List (UInt8 × Bytes) → Option Bytes
  | [] => none
  | (t, v) :: l =>
    match lastIME ty l with
    | some x => some x
    | none => if t.toNat = ty then some v else none

/-- The entries of the last maintenance report in a list of options. -/
def lastReport : List (Bool × HdrOption) → Option (List (UInt8 × Bytes))
  | [] => none
  | (_, o) :: l =>
    match lastReport l with
    | some x => some x
    | none => match o with
      | .maintenance es => some es
      | _ => none

/-- The payload of the last encapsulation option in a list of options. -/
def lastEncapsulation : List (Bool × HdrOption) → Option Bytes
  | [] => none
  | (_, o) :: l =>
    match lastEncapsulation l with
    | some x => some x
    | none => match o with
      | .encapsulation p => some p
      | _ => none

/-- The delay announced by the last expected-delay option, 0 if there is none. -/
def announcedDelay : List (Bool × HdrOption) → Int
  | [] => 0
  | (_, o) :: l =>
    if l.any (fun p => p.2.code = 1) then announcedDelay l
    else match o with
      | .delay b0 b1 b2 => signedOf 24 (beNat [b0, b1, b2])
      | _ => 0

end Spec

import Verif.Model.Stream
/-!
# Messages, attribute types and attribute values

`pyzwave/types.py`, `pyzwave/util.py:13-120` and the attribute classes in
`pyzwave/commandclass/`.
-/
namespace Model
open Spec (Bytes)

/-- Attribute types, i.e. the second component of an entry of `attributes`.
`enum_t(E, T)` (types.py:275-291) only changes `repr`, so it is modelled by `T`. -/
inductive FT
  | uint (size : Nat)     -- uint8_t/uint16_t/uint32_t/HomeID, types.py:123,191-206,405
  | sint (size : Nat)     -- int24_t, types.py:133
  | ubits (n : Nat)       -- uint3_t/uint4_t/uint5_t/uint7_t, types.py:139-188
  | bits (n : Nat)        -- bits_t(n), types.py:264
  | flag                  -- flag_t, types.py:251
  | reserved (n : Nat)    -- reserved_t(n), types.py:323
  | bytes                 -- bytes_t, types.py:236
  | str                   -- str_t, types.py:90
  | float                 -- float_t, types.py:294
  | dsk                   -- dsk_t, types.py:335
  | ipv6                  -- IPv6, types.py:392
  | nodes                 -- Association.Nodes, Association.py:23
  | nodeList              -- NetworkManagementProxy.NodeList, NetworkManagementProxy.py:33
  | sensors               -- SensorMultilevel.SensorSupported, SensorMultilevel.py:52
  | metaExt               -- NodeProvisioning.MetadataExtension, NodeProvisioning.py:31
  | hdr                   -- Zip.HeaderExtension, Zip.py:183
  | message               -- Message
  | pyint                 -- the builtin int
  | pylist                -- the builtin list
  deriving DecidableEq, Repr

/-- The `parse_<name>` methods defined on messages. -/
inductive ParseHook
  | headerExtension       -- Zip.py:258-264
  | supervisionCommand    -- Supervision.py:26-30
  | configValue           -- Configuration.py:87-89
  | nodeAddCommandClass   -- NetworkManagementInclusion.py:239-246
  | agiCommandClass       -- AssociationGrpInfo.py:80-92
  | agiGroups             -- AssociationGrpInfo.py:133-140
  | dskN                  -- NodeProvisioning.py:91-93
  | nodeFailing           -- Mailbox.py:70-79
  deriving DecidableEq, Repr

/-- The `compose_<name>` methods defined on messages. -/
inductive ComposeHook
  | configValue           -- Configuration.py:106-108
  deriving DecidableEq, Repr

/-- One entry of a message's `attributes` tuple together with its hooks. -/
structure Field where
  name : String
  ty : FT
  parse : Option ParseHook
  compose : Option ComposeHook
  deriving DecidableEq, Repr

/-- A message class registered with `@ZWaveMessage(cc, cmd)`. -/
structure MsgDef where
  name : String
  msgName : String
  cc : Nat
  cmd : Nat
  fields : List Field
  deriving DecidableEq, Repr

/-- commandclass/__init__.py:20-22 -/
def MsgDef.hid (d : MsgDef) : Nat := d.cc * 256 + d.cmd % 256

/-- Values in a maintenance report (Zip.py:46-106). -/
inductive IMEVal
  | num (v : Nat)
  | route (attrs : Dict String Int)
  | raw (b : Bytes)
  deriving DecidableEq, Repr

/-- Header option data (Zip.py:28-138).  `empty` is a bare `ZIPPacketOptionData()`, created by
`AttributesMixin.__getattr__` when the option is truncated after its type byte. -/
inductive OptVal
  | empty
  | delay (v : Int)
  | maint (d : Dict Nat IMEVal)
  | encap (attrs : Dict String Int)
  deriving DecidableEq, Repr

/-- An attribute value as stored in `_attributes`. -/
inductive Val
  | num (t : FT) (v : Int)             -- any integer class; `t` is the class of the object
  | bytes (b : Bytes)
  | str (codepoints : List Nat)
  | float (mantissa : Int) (precision size scale : Nat)  -- value = mantissa / 10^precision
  | dsk (b : Bytes)
  | ipv6 (b : Bytes)
  | nodes (l : List (Nat × Option Nat))
  | nodeSet (l : List Nat)
  | sensors (l : List Nat)
  | metaExt (d : Dict Nat Bytes)
  | hdr (d : Dict Nat OptVal)
  | byteList (l : Bytes)
  | pairs (l : List (UInt8 × UInt8))
  | groups (l : List (Dict String Int))
  deriving DecidableEq, Repr

/-- A message object.  The only attribute that can hold another message is called `command`
(Zip.py:255, Supervision.py:23), so it is kept apart: `wrap` is a message whose `command` is
set. `pure` is a plain `Message()` (message.py:21-23). -/
inductive Msg
  | pure
  | unknown (hid : Nat)
  | known (hid : Nat) (attrs : Dict String Val)
  | wrap (hid : Nat) (attrs : Dict String Val) (command : Msg)
  deriving DecidableEq, Repr

namespace Msg
/-- message.py:93-99, 112 -/
def hid : Msg → Nat
  | .pure => 0
  | .unknown h => h
  | .known h _ => h
  | .wrap h _ _ => h

/-- message.py:14-16 -/
def cmdClass (m : Msg) : Nat := (m.hid >>> 8) &&& 0xFF

def attrs : Msg → Dict String Val
  | .known _ a => a
  | .wrap _ a _ => a
  | _ => []

/-- `msg.command` -/
def command : Msg → Option Msg
  | .wrap _ _ c => some c
  | _ => none

/-- `msg._attributes.get(name)` -/
def attr (m : Msg) (name : String) : Option Val := m.attrs.get? name

/-- Integer attribute. -/
def num? (m : Msg) (name : String) : Option Int :=
  match m.attr name with
  | some (.num _ v) => some v
  | _ => none

/-- Truth value of a flag attribute (`None` is falsy). -/
def flag (m : Msg) (name : String) : Bool :=
  match m.attr name with
  | some (.num _ v) => v != 0
  | _ => false

end Msg
end Model

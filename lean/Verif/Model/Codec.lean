import Verif.Model.Msg
/-!
# Serialisation and deserialisation of attributes and messages

`types.py`, `message.py`, `util.py:54-67` and the attribute codecs in `commandclass/`.
-/
namespace Model
open Spec (Bytes)

/-! ## Integer attributes -/

/-- `deserialize` of the integer attribute classes: types.py:113-116 (whole bytes),
types.py:142-188 and 226-229 (bits). -/
def deserNum (t : FT) (r : Reader) : Py (Int × Reader) :=
  match t with
  | .uint n => do let (b, r) ← r.value n; pure ((fromBytesBE b : Int), r)
  | .sint n => do let (b, r) ← r.value n; pure (fromBytesBEs b, r)
  | .ubits n => do let (x, r) ← r.bits n; pure ((x : Int), r)
  | .bits n => do let (x, r) ← r.bits n; pure ((x : Int), r)
  | .flag => do let (x, r) ← r.bits 1; pure ((x : Int), r)
  | .reserved n => do let (x, r) ← r.bits n; pure ((x : Int), r)
  | _ => .error .attribute

/-- `parseAttributes` (util.py:54-67) of an AttributesMixin that only has integer attributes
(IMELastWorkingRoute, ZIPPacketOptionEncapsulationFormatInfo, GroupInfoGroupType). -/
def parseNums : List (String × FT) → Reader → Dict String Int → Py (Dict String Int × Reader)
  | [], r, acc => .ok (acc, r)
  | (name, t) :: fs, r, acc =>
    if r.bytesLeft = 0 then .ok (acc, r)
    else do
      let (v, r) ← deserNum t r
      parseNums fs r (Dict.set acc name v)

/-! ## Strings, floats -/

/-- A UTF-8 continuation byte. -/
def isCont (b : UInt8) : Bool := 0x80 ≤ b && b < 0xC0

/-- `bytes.decode("utf-8")` in strict mode (used in types.py:100): the code points, or
`UnicodeDecodeError`. Rejects overlong forms, surrogates and values above U+10FFFF. -/
def decodeUtf8 : Bytes → Py (List Nat)
  | [] => .ok []
  | a :: rest =>
    if a < 0x80 then do let t ← decodeUtf8 rest; pure (a.toNat :: t)
    else if a < 0xC0 then .error .unicode
    else if a < 0xE0 then
      match rest with
      | b :: rest =>
        let c := (a.toNat - 0xC0) * 64 + (b.toNat - 0x80)
        if isCont b && 0x80 ≤ c then do let t ← decodeUtf8 rest; pure (c :: t) else .error .unicode
      | _ => .error .unicode
    else if a < 0xF0 then
      match rest with
      | b :: b2 :: rest =>
        let c := (a.toNat - 0xE0) * 4096 + (b.toNat - 0x80) * 64 + (b2.toNat - 0x80)
        if isCont b && isCont b2 && 0x800 ≤ c && !(0xD800 ≤ c && c < 0xE000) then do
          let t ← decodeUtf8 rest; pure (c :: t)
        else .error .unicode
      | _ => .error .unicode
    else if a < 0xF8 then
      match rest with
      | b :: b2 :: b3 :: rest =>
        let c := (a.toNat - 0xF0) * 262144 + (b.toNat - 0x80) * 4096 + (b2.toNat - 0x80) * 64 + (b3.toNat - 0x80)
        if isCont b && isCont b2 && isCont b3 && 0x10000 ≤ c && c < 0x110000 then do
          let t ← decodeUtf8 rest; pure (c :: t)
        else .error .unicode
      | _ => .error .unicode
    else .error .unicode

/-- types.py:96-100 -/
def deserStr (r : Reader) : Py (List Nat × Reader) := do
  let (len, r) ← r.byte
  let (b, r) ← r.value len.toNat
  let s ← decodeUtf8 b
  pure (s, r)

/-- types.py:311-320.  Simplification: the value is kept exactly as mantissa and precision
instead of the rounded float `mantissa / 10**precision`, which is in `Model/Float.lean`. -/
def deserFloat (r : Reader) : Py (Val × Reader) := do
  let (precision, r) ← r.bits 3
  let (scale, r) ← r.bits 2
  let (size, r) ← r.bits 3
  let (b, r) ← r.value size
  pure (.float (fromBytesBEs b) precision size scale, r)

/-- types.py:381-389 -/
def deserDskN (r : Reader) (length : Nat) : Py (Bytes × Reader) :=
  if length = 0 then .ok ([], r)
  else if length ≠ 16 then .error .value
  else r.value length

/-! ## Collections -/

/-- Second loop of Association.py:87-91: pairs (node, end point); an odd number of bytes
raises IndexError (`data[1]`). -/
def deserPairs : Bytes → Py (List (Nat × Option Nat))
  | [] => .ok []
  | [_] => .error .index
  | n :: e :: rest => do let t ← deserPairs rest; pure ((n.toNat, some e.toNat) :: t)

/-- Association.py:76-92 (`MULTI_CHANNEL_ASSOCIATION_SET_MARKER_V2` is 0). -/
def deserNodes : Bytes → Py (List (Nat × Option Nat))
  | [] => .ok []
  | n :: rest =>
    if n = 0 then deserPairs rest
    else do let t ← deserNodes rest; pure ((n.toNat, none) :: t)

/-- Appending a number to a bytearray raises ValueError outside 0..255. -/
def asByte (n : Nat) : Py UInt8 := if n < 256 then .ok (UInt8.ofNat n) else .error .value

/-- First loop of Association.py:61-66: the nodes without an end point. -/
def serNodesPlain : List (Nat × Option Nat) → Py Bytes
  | [] => .ok []
  | (n, none) :: l => do let b ← asByte n; let t ← serNodesPlain l; pure (b :: t)
  | (_, some _) :: l => serNodesPlain l

/-- Second loop of Association.py:70-74: the nodes with an end point. -/
def serNodesMulti : List (Nat × Option Nat) → Py Bytes
  | [] => .ok []
  | (_, none) :: l => serNodesMulti l
  | (n, some e) :: l => do
    let b ← asByte n; let c ← asByte e; let t ← serNodesMulti l; pure (b :: c :: t)

/-- Association.py:59-74 -/
def serNodes (l : List (Nat × Option Nat)) : Py Bytes := do
  let a ← serNodesPlain l
  if l.any (fun p => p.2.isSome) then do
    let b ← serNodesMulti l
    pure (a ++ 0 :: b)
  else pure a

/-- The nodes of mask byte `i` (NetworkManagementProxy.py:41-44), in ascending order. -/
def nodeByteBits (i : Nat) (b : UInt8) : List Nat :=
  (List.range 8).filterMap fun j => if b.toNat &&& (1 <<< j) ≠ 0 then some (i * 8 + j + 1) else none

/-- NetworkManagementProxy.py:39-45, remaining iterations `k` starting at `i`. The set is kept as an
ascending list. -/
def deserNodeList : Nat → Nat → Reader → Py (List Nat × Reader)
  | 0, _, r => .ok ([], r)
  | k + 1, i, r => do
    let (b, r) ← r.value 1
    let (t, r) ← deserNodeList k (i + 1) r
    pure (nodeByteBits i (UInt8.ofNat (fromBytesBE b)) ++ t, r)

/-- Members of `SensorType` (SensorMultilevel.py:26-46). -/
def sensorTypes : List Nat :=
  [1, 2, 3, 4, 5, 6, 9, 0x0B, 0x0C, 0x0E, 0x0F, 0x11, 0x13, 0x1B, 0x1E, 0x1F, 0x23, 0x28]

/-- Loop of SensorMultilevel.py:60-65; `SensorType(i)` raises ValueError for an unknown type.
`fuel` bounds the number of shifts. -/
def sensorLoop : Nat → Nat → Nat → Py (List Nat)
  | 0, value, _ => if value > 0 then .error .fuel else .ok []
  | fuel + 1, value, i =>
    if value > 0 then
      if value &&& 1 = 1 then
        if i ∈ sensorTypes then do
          let t ← sensorLoop fuel (value >>> 1) (i + 1)
          pure (i :: t)
        else .error .value
      else sensorLoop fuel (value >>> 1) (i + 1)
    else .ok []

/-- SensorMultilevel.py:55-66 -/
def deserSensors (r : Reader) : Py (List Nat × Reader) := do
  let (b, r) := r.remaining
  let l ← sensorLoop (8 * b.length) (fromBytesBE b) 1
  pure (l, r)

/-- NodeProvisioning.py:34-43; `while stream.bytesLeft()` is true for any non-zero value. -/
def metaLoop : Nat → Reader → Dict Nat Bytes → Py (Dict Nat Bytes × Reader)
  | 0, _, _ => .error .fuel
  | fuel + 1, r, acc =>
    if r.bytesLeft = 0 then .ok (acc, r)
    else do
      let (ty, r) ← r.bits 7
      let (_, r) ← r.bit
      let (len, r) ← r.byte
      let (b, r) ← r.value len.toNat
      metaLoop fuel r (Dict.set acc ty b)

/-- Members of `MetadataExtensionType` (NodeProvisioning.py:16-28). -/
def metaTypes : List Nat := [0x00, 0x01, 0x02, 0x03, 0x32, 0x33, 0x34, 0x35, 0x36, 0x37]

/-! ## Z/IP header extension -/

/-- Zip.py:69-75 -/
def routeFields : List (String × FT) :=
  [("repeater1", .uint 1), ("repeater2", .uint 1), ("repeater3", .uint 1), ("repeater4", .uint 1),
   ("speed", .uint 1)]

/-- `IME_MAPPING.get(imeType, IMEUnknownValue).load(BitStreamReader(b))` (Zip.py:49-52, 77-81,
100-106, 122-123) -/
def loadIME (ty : Nat) (b : Bytes) : Py IMEVal :=
  if ty = 0 ∨ ty = 4 ∨ ty = 5 then do
    let (v, _) ← (Reader.new b).value 1; pure (.num (fromBytesBE v))
  else if ty = 1 then do
    let (v, _) ← (Reader.new b).value 2; pure (.num (fromBytesBE v))
  else if ty = 2 then do
    let (a, _) ← parseNums routeFields (Reader.new b) []; pure (.route a)
  else pure (.raw b)

/-- Zip.py:114-124; `IMEType(x)` raises ValueError for x > 8 (Zip.py:32-43). -/
def maintLoop : Nat → Reader → Dict Nat IMEVal → Py (Dict Nat IMEVal)
  | 0, _, _ => .error .fuel
  | fuel + 1, r, acc =>
    if r.bytesLeft = 0 then .ok acc
    else do
      let (ty, r) ← r.byte
      if ty.toNat > 8 then .error .value
      else do
        let (len, r) ← r.byte
        let (b, r) ← r.value len.toNat
        let v ← loadIME ty.toNat b
        maintLoop fuel r (Dict.set acc ty.toNat v)

/-- Zip.py:130-134 -/
def encapFields : List (String × FT) :=
  [("security2SecurityClass", .bits 8), ("-", .reserved 7), ("crc16", .flag)]

/-- Zip.py:160-180 after the option type has been read: payload of an option of type `ty`.
Types other than 1, 3 and 4 end in `ZIPPacketOptionData.deserialize`, which does not exist. -/
def parseOptionData (ty : Nat) (r : Reader) : Py (OptVal × Reader) := do
  let (len, r) ← r.byte
  let (b, r) ← r.value len.toNat
  if ty = 3 then do
    let d ← maintLoop (b.length + 1) (Reader.new b) []
    pure (.maint d, r)
  else if ty = 4 then do
    let (a, _) ← parseNums encapFields (Reader.new b) []
    pure (.encap a, r)
  else if ty = 1 then do
    let (v, _) ← (Reader.new b).value 3
    pure (.delay (fromBytesBEs v), r)
  else .error .attribute

/-- `ZIPPacketOption().parseAttributes(reader)` (Zip.py:151-180, util.py:54-67) followed by
reading `optionType` and `optionData` (util.py:69-78 supplies a default object when the option
is truncated). Called with at least one byte left. -/
def parseOption (r : Reader) : Py ((Nat × OptVal) × Reader) := do
  let (_, r) ← r.bits 1
  let (ty, r) ← r.bits 7
  if r.bytesLeft = 0 then pure ((ty, .empty), r)
  else do
    let (v, r) ← parseOptionData ty r
    pure ((ty, v), r)

/-- Loop of Zip.py:204-207. -/
def optionLoop : Nat → Reader → Dict Nat OptVal → Py (Dict Nat OptVal)
  | 0, _, _ => .error .fuel
  | fuel + 1, r, acc =>
    if r.bytesLeft > 0 then do
      let ((ty, v), r) ← parseOption r
      optionLoop fuel r (Dict.set acc ty v)
    else .ok acc

/-- Zip.py:198-208 -/
def deserHdr (r : Reader) : Py (Dict Nat OptVal × Reader) := do
  let (b, r) ← r.byte
  let (ext, r) ← r.valueZ ((b.toNat : Int) - 1)
  let d ← optionLoop (ext.length + 1) (Reader.new ext) []
  pure (d, r)

/-- Zip.py:190-193.  `ack.queued` compares the result with 0 (adapter.py:46), which raises
TypeError for a bare option object. -/
def expectedDelay (d : Dict Nat OptVal) : Py Int :=
  match Dict.get? d 1 with
  | none => .ok 0
  | some (.delay v) => .ok v
  | some _ => .error .type

/-! ## AssociationGrpInfo -/

/-- AssociationGrpInfo.py:86-91: `k` pairs. -/
def agiPairs : Nat → Reader → Py (List (UInt8 × UInt8) × Reader)
  | 0, r => .ok ([], r)
  | k + 1, r => do
    let (c, r) ← r.byte
    let (d, r) ← r.byte
    let (t, r) ← agiPairs k r
    pure ((c, d) :: t, r)

/-- AssociationGrpInfo.py:111-117 -/
def groupFields : List (String × FT) :=
  [("groupingIdentifier", .uint 1), ("mode", .uint 1), ("profile", .uint 2), ("-", .reserved 8),
   ("eventCode", .uint 2)]

/-- AssociationGrpInfo.py:133-140 -/
def agiGroups : Nat → Reader → Py (List (Dict String Int) × Reader)
  | 0, r => .ok ([], r)
  | k + 1, r => do
    let (g, r) ← parseNums groupFields r []
    let (t, r) ← agiGroups k r
    pure (g :: t, r)

/-! ## Attributes -/

/-- `attrType.deserialize(stream)` for everything except `Message`. The builtins `int` and
`list` have no `deserialize` (AttributeError). -/
def deserVal (t : FT) (r : Reader) : Py (Val × Reader) :=
  match t with
  | .bytes => let (b, r) := r.remaining; .ok (.bytes b, r)
  | .str => do let (s, r) ← deserStr r; pure (.str s, r)
  | .float => deserFloat r
  | .dsk => do let (b, r) ← deserDskN r 16; pure (.dsk b, r)
  | .ipv6 => do let (b, r) ← r.value 16; pure (.ipv6 b, r)
  | .nodes => do let (b, r) := r.remaining; let l ← deserNodes b; pure (.nodes l, r)
  | .nodeList => do let (l, r) ← deserNodeList 28 0 r; pure (.nodeSet l, r)
  | .sensors => do let (l, r) ← deserSensors r; pure (.sensors l, r)
  | .metaExt => do let (d, r) ← metaLoop (r.data.length + 1) r []; pure (.metaExt d, r)
  | .hdr => do let (d, r) ← deserHdr r; pure (.hdr d, r)
  | .message => .error .attribute
  | .pyint => .error .attribute
  | .pylist => .error .attribute
  | t => do let (v, r) ← deserNum t r; pure (.num t v, r)

/-- Conversion to the attribute type in `__setattr__` (util.py:94-103): integers are wrapped in
the class, `flag_t` keeps only the lowest bit (types.py:254-255); the keys of the dictionary
types are converted to their enum, which raises ValueError for unknown keys
(CommandClass.py:57-59). -/
def coerce (t : FT) : Val → Py Val
  | .num _ x => .ok (.num t (if t = .flag then x % 2 else x))
  | .metaExt d => if d.all (fun p => p.1 ∈ metaTypes) then .ok (.metaExt d) else .error .value
  | .hdr d => if d.all (fun p => 1 ≤ p.1 && p.1 ≤ 5) then .ok (.hdr d) else .error .value
  | v => .ok v

/-- The type `__setattr__` uses for `name`: that of the *first* attribute with this name
(util.py:90-92). -/
def typeOf (fields : List Field) (name : String) : FT :=
  match fields.find? (fun f => f.name = name) with
  | some f => f.ty
  | none => .pyint

/-- Integer value of an already parsed attribute (`self.size`, ...). -/
def intAttr (attrs : Dict String Val) (name : String) : Py Int :=
  match Dict.get? attrs name with
  | some (.num _ v) => .ok v
  | _ => .error .type

/-- The `parse_*` hooks except `supervisionCommand`. -/
def runHook (h : ParseHook) (attrs : Dict String Val) (r : Reader) : Py (Val × Reader) :=
  match h with
  | .headerExtension =>
    -- Zip.py:262-264
    match Dict.get? attrs "headerExtIncluded" with
    | some (.num _ v) => if v = 0 then .ok (.hdr [], r) else do let (d, r) ← deserHdr r; pure (.hdr d, r)
    | _ => .ok (.hdr [], r)
  | .configValue => do
    let size ← intAttr attrs "size"
    let (b, r) ← r.valueZ size
    pure (.num .pyint (fromBytesBE b), r)
  | .nodeAddCommandClass => do
    let n ← intAttr attrs "nodeInfoLength"
    if n - 7 > r.bytesLeft then
      let (b, r) := r.remaining
      pure (.byteList b, r)
    else do
      let (b, r) ← r.valueZ (n - 7)
      pure (.byteList b, r)
  | .agiCommandClass => do
    let (len, r) ← r.byte
    let (l, r) ← agiPairs ((len.toNat + 1) / 2) r
    pure (.pairs l, r)
  | .agiGroups => do
    let n ← intAttr attrs "groupCount"
    let (l, r) ← agiGroups n.toNat r
    pure (.groups l, r)
  | .dskN => do
    let n ← intAttr attrs "dskLengthN"
    let (b, r) ← deserDskN r n.toNat
    pure (.dsk b, r)
  | .nodeFailing => do
    let r := if r.bytesLeft = 16 then r.advance (8 * 15) else r
    let (b, r) ← r.byte
    pure (.num (.uint 1) b.toNat, r)
  | .supervisionCommand => .error .attribute

/-- `parseAttributes` (util.py:54-67) of a message. `all` is the complete attribute list,
`dec` is `Message.deserialize` on a stream. -/
def parseFields (all : List Field) (dec : Reader → Py (Msg × Reader)) :
    List Field → Reader → Dict String Val → Py (Dict String Val × Option Msg × Reader)
  | [], r, acc => .ok (acc, none, r)
  | f :: fs, r, acc =>
    if r.bytesLeft = 0 then .ok (acc, none, r)
    else if f.ty = .message then
      -- the attribute `command`, always the last one
      match f.parse with
      | some .supervisionCommand => do
        let (len, r) ← r.byte
        let (b, r) ← r.value len.toNat
        let (m, _) ← dec (Reader.new b)
        pure (acc, some m, r)
      | _ => do
        let (m, r) ← dec r
        pure (acc, some m, r)
    else do
      let (v, r) ← match f.parse with
        | some h => runHook h acc r
        | none => deserVal f.ty r
      let v ← coerce (typeOf all f.name) v
      parseFields all dec fs r (Dict.set acc f.name v)

/-- `Message.deserialize` (message.py:77-91) with a budget `depth` of nested messages
(Python's recursion limit). `reg` is the message registry. -/
def deserMsg (reg : List MsgDef) : Nat → Reader → Py (Msg × Reader)
  | 0, _ => .error .recursion
  | depth + 1, r =>
    if r.bytesLeft < 2 then .ok (.unknown 0, r)
    else do
      let (cc, r) ← r.byte
      let (cmd, r) ← r.byte
      let hid := (cc.toNat <<< 8) ||| (cmd.toNat &&& 0xFF)
      match reg.find? (fun d => d.hid = hid) with
      | none => pure (.unknown hid, r)
      | some d => do
        let (attrs, c, r) ← parseFields d.fields (deserMsg reg depth) d.fields r []
        match c with
        | none => pure (.known hid attrs, r)
        | some m => pure (.wrap hid attrs m, r)

/-- `Message.decode` (message.py:72-75) with nesting budget `depth`. -/
def decodeN (reg : List MsgDef) (depth : Nat) (pkt : Bytes) : Py Msg := do
  let (m, _) ← deserMsg reg depth (Reader.new pkt)
  pure m

/-! ## Composing -/

/-- `value.serialize(stream)`; classes without a `serialize` method make `compose` raise
ValueError (message.py:40-41). -/
def serVal (v : Val) (w : Writer) : Py Writer :=
  match v with
  | .num (.uint n) x => w.addBytes x n false
  | .num (.sint n) x => w.addBytes x n true
  | .num (.ubits n) x => w.addBits x n
  | .num (.bits n) x => w.addBits x n
  | .num .flag x => w.addBits x 1
  | .num (.reserved n) x => w.addBits x n
  | .bytes b => .ok (w.extend b)
  | .dsk b => .ok (w.extend b)
  | .ipv6 b => .ok (w.extend b)
  | .nodes l => do let b ← serNodes l; pure (w.extend b)
  | .hdr _ => .ok w             -- Zip.py:195-196 writes nothing
  | _ => .error .value

/-- `getattr(attrType, "default", None)` wrapped in the type (message.py:29-31):
`reserved_t`, `bytes_t`, `Nodes` and `HeaderExtension` have one. -/
def defaultVal : FT → Option Val
  | .reserved n => some (.num (.reserved n) 0)
  | .bytes => some (.bytes [])
  | .nodes => some (.nodes [])
  | .hdr => some (.hdr [])
  | _ => none

/-- One iteration of message.py:27-42. `cmd` is the composed `command` if that attribute is set. -/
def composeField (attrs : Dict String Val) (cmd : Option (Py Bytes)) (f : Field) (w : Writer) : Py Writer :=
  if f.ty = .message then
    match cmd with
    | none => .error .attribute
    | some c => do let b ← c; pure (w.extend b)       -- message.py:45-47
  else
    match Dict.get? attrs f.name with
    | none =>
      match defaultVal f.ty with
      | some v => serVal v w
      | none => .error .attribute
    | some v =>
      match f.compose with
      | some .configValue =>
        -- Configuration.py:106-108
        match v, Dict.get? attrs "size" with
        | .num _ x, some (.num _ n) => w.addBytes x n.toNat false
        | _, _ => .error .type
      | none => serVal v w

/-- The loop of message.py:27-42. -/
def composeFields (attrs : Dict String Val) (cmd : Option (Py Bytes)) : List Field → Writer → Py Writer
  | [], w => .ok w
  | f :: fs, w => do
    let w ← composeField attrs cmd f w
    composeFields attrs cmd fs w

/-- message.py:20-43 for an object of the registered class `d`. -/
def composeDef (d : MsgDef) (attrs : Dict String Val) (cmd : Option (Py Bytes)) : Py Bytes := do
  let w ← Writer.new.addBytes d.cc 1 false
  let w ← w.addBytes d.cmd 1 false
  let w ← composeFields attrs cmd d.fields w
  pure w.data

/-- `Message.compose` (message.py:18-43). Objects of unregistered classes give `b""`. -/
def composeWith (reg : List MsgDef) : Msg → Py Bytes
  | .pure => .ok []
  | .unknown _ => .ok []
  | .known hid attrs =>
    match reg.find? (fun d => d.hid = hid) with
    | none => .ok []
    | some d => composeDef d attrs none
  | .wrap hid attrs c =>
    match reg.find? (fun d => d.hid = hid) with
    | none => .ok []
    | some d => composeDef d attrs (some (composeWith reg c))

/-! ## Constructing messages and reading attributes -/

/-- Conversion of a keyword argument to the attribute's class (util.py:29-33): integer classes
take an integer (`flag_t` keeps the lowest bit), `dsk_t.__setstate__` wants 16 or 0 bytes
(types.py:355-361; a `dsk_t` object has no method `split`, line 362), `IPv6` wants 16 packed bytes. An argument of a kind the class does not accept
is modelled as TypeError (simplification: string forms of DSK, IPv6 and nodes are not arguments
here, see `Model/Text.lean` for those used by the storage and `Model/Dsk.lean` for keys). -/
def coerceInit (t : FT) (v : Val) : Py Val :=
  match t, v with
  | .uint n, .num _ x => .ok (.num (.uint n) x)
  | .sint n, .num _ x => .ok (.num (.sint n) x)
  | .ubits n, .num _ x => .ok (.num (.ubits n) x)
  | .bits n, .num _ x => .ok (.num (.bits n) x)
  | .flag, .num _ x => .ok (.num .flag (x % 2))
  | .reserved n, .num _ x => .ok (.num (.reserved n) x)
  | .pyint, .num _ x => .ok (.num .pyint x)
  | .bytes, .bytes b => .ok (.bytes b)
  | .dsk, .bytes b => if b.length = 16 ∨ b.length = 0 then .ok (.dsk b) else .error .value
  | .dsk, .dsk _ => .error .attribute
  | .ipv6, .bytes b => if b.length = 16 then .ok (.ipv6 b) else .error .value
  | .nodes, .nodes l => .ok (.nodes l)
  | .str, .str s => .ok (.str s)
  | .float, .float m p sz sc => .ok (.float m p sz sc)
  | .nodeList, .nodeSet l => .ok (.nodeSet l)
  | .sensors, .sensors l => .ok (.sensors l)
  | .pylist, .byteList l => .ok (.byteList l)
  | .pylist, .pairs l => .ok (.pairs l)
  | .pylist, .groups l => .ok (.groups l)
  | .metaExt, .metaExt d => coerce .metaExt (.metaExt d)
  | .hdr, .hdr d => coerce .hdr (.hdr d)
  | _, _ => .error .type

/-- Loop of util.py:21-33 over the declared attributes. `kw` is the dict of keyword arguments, of
which the loop only uses `in` and lookup. -/
def initAttrs (kw : String → Option Val) : List Field → Dict String Val → Py (Dict String Val)
  | [], acc => .ok acc
  | f :: fs, acc =>
    match kw f.name with
    | none => initAttrs kw fs acc
    | some v => do
      let v ← coerceInit f.ty v
      initAttrs kw fs (Dict.set acc f.name v)

/-- `MsgCls(**kw)` for the class `d` (util.py:18-33). -/
def construct (d : MsgDef) (kw : String → Option Val) : Py Msg := do
  let a ← initAttrs kw d.fields []
  pure (.known d.hid a)

/-- `getattr(msg, name)` (message.py:54-62): the stored value, else the default of the type of the
first attribute with that name, else None. -/
def getAttr (reg : List MsgDef) (m : Msg) (name : String) : Option Val :=
  match m.attr name with
  | some v => some v
  | none =>
    match reg.find? (fun d => d.hid = m.hid) with
    | none => none
    | some d =>
      match d.fields.find? (fun f => f.name = name) with
      | none => none
      | some f => defaultVal f.ty

end Model

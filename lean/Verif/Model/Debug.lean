import Verif.Model.Text
import Verif.Model.Registry
/-!
# Describing messages

`AttributesMixin.debugString` (util.py:38-52), the `debugString` of dictionaries (CommandClass.py:29-42) and the `__repr__` methods of `pyzwave/types.py`.
The receive paths call `debugString()` themselves, outside of the logging module (zipconnection.py:96, node.py:179, application.py:157), so an exception
in it would be one of the receive path.
-/
namespace Model.Debug
open Spec (Bytes)

/-- One digit in a base up to 16, as printed by the formats `b` and `X`. -/
def digitX (d : Nat) : Char := if d < 10 then Char.ofNat (48 + d) else Char.ofNat (55 + d)

/-- Digits of `n` in base `b`; the first argument bounds the number of divisions. -/
def baseStrF (b : Nat) : Nat → Nat → Str
  | 0, n => [digitX n]
  | f + 1, n => if n < b then [digitX n] else baseStrF b f (n / b) ++ [digitX (n % b)]

/-- The format `0{w}X` or `0{w}b` of an integer: at least `w` characters, filled up with zeros after the sign. -/
def fmt (b w : Nat) (v : Int) : Str :=
  let ds := baseStrF b v.natAbs v.natAbs
  if v < 0 then '-' :: (List.replicate (w - 1 - ds.length) '0' ++ ds) else List.replicate (w - ds.length) '0' ++ ds

/-- An enumeration: the names of an IntEnum, or what `str()` gives for the values of an IntFlag. `none`: the enumeration raises ValueError. -/
inductive Enumeration
  | names (f : Int → Option Str)
  | flags (f : Int → Option Str)

/-- What is taken from Python: the `repr` of its own types, of objects whose class has none (it contains an address), and of enum members;
which attributes are enumerations. -/
structure Env where
  builtin : Val → Str
  bytes : Bytes → Str
  object : String → Str
  key : String → Nat → Str
  enumOf : Nat → String → Option Enumeration

/-- types.py:281-289 -/
def enumText (v : Int) : Enumeration → Str
  | .flags f => match f v with
    | some t => t ++ " (".toList ++ fmt 2 0 v ++ ")".toList
    | none => "UNKNOWN (0x".toList ++ fmt 16 0 v ++ ")".toList
  | .names f => match f v with
    | some t => t ++ " (0x".toList ++ fmt 16 0 v ++ ")".toList
    | none => "UNKNOWN (0x".toList ++ fmt 16 0 v ++ ")".toList

/-- types.py:129-130, 223-224, 260-261; the other integer classes have the `repr` of `int`. -/
def numText (t : FT) (v : Int) : Str :=
  match t with
  | .uint n => "0x".toList ++ fmt 16 n v ++ " (".toList ++ intStr v ++ ")".toList
  | .bits n => "bits_t(".toList ++ fmt 2 n v ++ ")".toList
  | .reserved n => "bits_t(".toList ++ fmt 2 n v ++ ")".toList
  | .flag => if v ≠ 0 then "flag_t(True)".toList else "flag_t(False)".toList
  | _ => intStr v

/-- `"\t" * indent` -/
def tabs (indent : Nat) : Str := List.replicate indent '\t'

/-- util.py:51, CommandClass.py:39-41 -/
def entry (indent : Nat) (name value : Str) : Str := tabs (indent + 1) ++ name ++ " = ".toList ++ value

/-- util.py:52, CommandClass.py:42 -/
def block (title : Str) (entries : List Str) : Str := title ++ ":\n".toList ++ pyJoin '\n' entries

/-- `debugString` of objects with number attributes only (util.py:38-52): the last working route and the encapsulation format. -/
def numsText (env : Env) (cls : String) (enums : String → Option Enumeration) (fields : List (String × FT)) (attrs : Dict String Int) (indent : Nat) : Str :=
  block (env.object cls) (fields.filterMap fun f => (Dict.get? attrs f.1).map fun v =>
    entry indent f.1.toList (match enums f.1 with | some e => enumText v e | none => numText f.2 v))

/-- Zip.py:62-67 -/
def speeds : Enumeration := .names fun v =>
  if v = 1 then some "SPEED_9_6_KBIT_S".toList else if v = 2 then some "SPEED_40_KBIT_S".toList else if v = 3 then some "SPEED_100_KBIT_S".toList else none

/-- A value of a maintenance report (Zip.py:55-106). -/
def imeText (env : Env) (ty indent : Nat) : IMEVal → Str
  | .num v => numText (.uint (if ty = 1 then 2 else 1)) v
  | .route attrs => numsText env "IMELastWorkingRoute" (fun n => if n = "speed" then some speeds else none) routeFields attrs indent
  | .raw b => env.bytes b

/-- The data of a header option (Zip.py:28, 109-138). -/
def optText (env : Env) (indent : Nat) : OptVal → Str
  | .empty => env.object "ZIPPacketOptionData"
  | .delay v => intStr v
  | .maint d => block "ZIPPacketOptionMaintenanceReport".toList (d.map fun e => entry indent (env.key "IMEType" e.1) (imeText env e.1 (indent + 1) e.2))
  | .encap attrs => numsText env "ZIPPacketOptionEncapsulationFormatInfo" (fun _ => none) encapFields attrs indent

/-- util.py:47-50: the text of the value of attribute `name` of a message with this hid. -/
def valText (env : Env) (hid : Nat) (name : String) (indent : Nat) : Val → Py Str
  | .num t v => .ok (match env.enumOf hid name with | some e => enumText v e | none => numText t v)
  | .dsk b => dskGetState b
  | .hdr d => .ok (block "HeaderExtension".toList (d.map fun e => entry (indent + 1) (env.key "ZIPPacketOptionType" e.1) (optText env (indent + 2) e.2)))
  | .metaExt d => .ok (block "MetadataExtension".toList (d.map fun e => entry (indent + 1) (env.key "MetadataExtensionType" e.1) (env.bytes e.2)))
  | v => .ok (env.builtin v)

/-- One round of the loop of util.py:43-51: the entry of an attribute, if it is set. `cmd` is the description of the attribute `command`. -/
def fieldText (env : Env) (hid indent : Nat) (attrs : Dict String Val) (cmd : Option (Py Str)) (f : Field) : Py (Option Str) :=
  match (if f.ty = .message then cmd else (Dict.get? attrs f.name).map (valText env hid f.name indent)) with
  | none => .ok none
  | some (.ok t) => .ok (some (entry indent f.name.toList t))
  | some (.error e) => .error e

/-- The loop of util.py:43-51. -/
def entries (env : Env) (hid indent : Nat) (attrs : Dict String Val) (cmd : Option (Py Str)) : List Field → Py (List Str)
  | [] => .ok []
  | f :: fs => do
    let e ← fieldText env hid indent attrs cmd f
    let es ← entries env hid indent attrs cmd fs
    pure (e.toList ++ es)

/-- `cmdClasses` (commandclass/__init__.py:49, 40, 69-74): the names given in `registerCmdClass` and `@ZWaveCommandClass`. -/
def classNames : Dict Nat String :=
  [(0x20, "BASIC"), (0x22, "APPLICATION_STATUS"), (0x23, "ZIP"), (0x25, "SWITCH_BINARY"), (0x31, "SENSOR_MULTILEVEL"), (0x32, "METER"),
   (0x34, "NETWORK_MANAGEMENT_INCLUSION"), (0x52, "NETWORK_MANAGEMENT_PROXY"), (0x58, "ZIP_ND"), (0x59, "ASSOCIATION_GRP_INFO"),
   (0x5E, "ZWAVEPLUS_INFO"), (0x5F, "ZIP_GATEWAY"), (0x69, "MAILBOX"), (0x6C, "SUPERVISION"), (0x70, "CONFIGURATION"),
   (0x72, "MANUFACTURER_SPECIFIC"), (0x78, "NODE_PROVISIONING"), (0x80, "BATTERY"), (0x85, "ASSOCIATION"), (0x86, "VERSION"), (0x87, "INDICATOR")]

/-- message.py:66, 68 -/
def className (m : Msg) : Str :=
  match Dict.get? classNames ((m.hid >>> 8) &&& 0xFF) with
  | some n => n.toList
  | none => "0x".toList ++ fmt 16 2 ((m.hid >>> 8) &&& 0xFF : Nat)

/-- message.py:67, 69; a message of an unknown type has no `NAME` (message.py:12). -/
def commandName (reg : List MsgDef) (m : Msg) : Str :=
  let name : Option String := match m with
    | .pure | .unknown _ => none
    | _ => (reg.find? (fun d => d.hid = m.hid)).map fun d => d.msgName
  match name with
  | some n => n.toList
  | none => "0x".toList ++ fmt 16 2 (m.hid &&& 0xFF : Nat)

/-- message.py:64-70 -/
def title (reg : List MsgDef) (m : Msg) : Str := "<Z-Wave ".toList ++ className m ++ ".".toList ++ commandName reg m ++ ">".toList

/-- The `attributes` of a message's class. -/
def fieldsOf (reg : List MsgDef) (hid : Nat) : List Field :=
  match reg.find? (fun d => d.hid = hid) with
  | some d => d.fields
  | none => []

/-- `message.debugString(indent)` (util.py:38-52) -/
def debugString (env : Env) (reg : List MsgDef) : Msg → Nat → Py Str
  | .pure, _ => .ok (block (title reg .pure) [])
  | .unknown h, _ => .ok (block (title reg (.unknown h)) [])
  | .known h a, i => do
    let es ← entries env h i a none (fieldsOf reg h)
    pure (block (title reg (.known h a)) es)
  | .wrap h a c, i => do
    let es ← entries env h i a (some (debugString env reg c (i + 1))) (fieldsOf reg h)
    pure (block (title reg (.wrap h a c)) es)

end Model.Debug

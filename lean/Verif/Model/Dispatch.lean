import Verif.Model.Debug
import Verif.Model.Node
/-!
# The objects of command classes

`ZWaveCommandClass` (commandclass/__init__.py:29-45), `CommandClass.load` and the identity of the objects it creates (CommandClass.py:126-129, 149-152, 207-238), and the handlers
registered with `@ZWaveMessageHandler` (commandclass/__init__.py:52-66).
-/
namespace Model.Dispatch

/-- A Python class registered with `@ZWaveCommandClass`: its module and its NAME. -/
structure Cls where
  module : String
  NAME : String
  deriving DecidableEq, Repr

/-- The decorators (commandclass/__init__.py:77-101 imports the modules; the numbers are all different, so the order does not matter). -/
def decorators : List (Nat × Cls) := [
  (0x86, ⟨"Version", "VERSION"⟩),                               -- Version.py:15-19
  (0x85, ⟨"Association", "ASSOCIATION"⟩),                       -- Association.py:128-132
  (0x59, ⟨"AssociationGrpInfo", "ASSOCIATION_GRP_INFO"⟩),       -- AssociationGrpInfo.py:164-168
  (0x20, ⟨"Basic", "BASIC"⟩),                                   -- Basic.py:39-43
  (0x80, ⟨"Battery", "BATTERY"⟩),                               -- Battery.py:29-33
  (0x70, ⟨"Configuration", "CONFIGURATION"⟩),                   -- Configuration.py:118-122
  (0x87, ⟨"Indicator", "INDICATOR"⟩),                           -- Indicator.py:39-43
  (0x69, ⟨"Mailbox", "MAILBOX"⟩),                               -- Mailbox.py:137-141
  (0x72, ⟨"ManufacturerSpecific", "MANUFACTURER_SPECIFIC"⟩),    -- ManufacturerSpecific.py:12-16
  (0x32, ⟨"Meter", "METER"⟩),                                   -- Meter.py:136-140
  (0x31, ⟨"SensorMultilevel", "SENSOR_MULTILEVEL"⟩),            -- SensorMultilevel.py:153-157
  (0x5E, ⟨"ZwavePlusInfo", "ZWAVEPLUS_INFO"⟩)]                  -- ZwavePlusInfo.py:12-16

/-- `ZWaveCommandClass` and its `reverseMapping` (commandclass/__init__.py:38-43). -/
def register (s : Dict Nat Cls × Dict Cls Nat) (d : Nat × Cls) : Dict Nat Cls × Dict Cls Nat := (s.1.set d.1 d.2, s.2.set d.2 d.1)

/-- After all imports. -/
def registered : Dict Nat Cls × Dict Cls Nat := decorators.foldl register ([], [])

/-- The object of a command class. -/
inductive Obj
  | known (c : Cls) (securityS0 : Bool)
  | unknown (id : Nat) (securityS0 : Bool)
  deriving DecidableEq, Repr

/-- CommandClass.py:207-219 -/
def load (cmdClass : Nat) (securityS0 : Bool) : Obj :=
  match registered.1.get? cmdClass with
  | some c => .known c securityS0
  | none => .unknown cmdClass securityS0

/-- CommandClass.py:126-129, 232-234 -/
def Obj.id : Obj → Nat
  | .known c _ => (registered.2.get? c).getD 0
  | .unknown id _ => id

/-- CommandClass.py:149-152, 236-238 -/
def Obj.name : Obj → Str
  | .known c _ => c.NAME.toList
  | .unknown id _ => "UNKNOWN (0x".toList ++ Debug.fmt 16 0 id ++ ")".toList

/-- CommandClass.py:173-176 -/
def Obj.securityS0 : Obj → Bool
  | .known _ s => s
  | .unknown _ s => s

/-- `__messageHandlers__` of the class of an object: the messages with a handler (Configuration.py:125, SensorMultilevel.py:160, AssociationGrpInfo.py:171, 176, 188). Classes
without handlers have no such attribute, and reading it gives None (util.py:69-78). -/
def Obj.handles : Obj → List MsgDef
  | .known c _ =>
    if c.module = "Configuration" then [Reg.Configuration.Report]
    else if c.module = "SensorMultilevel" then [Reg.SensorMultilevel.Report]
    else if c.module = "AssociationGrpInfo" then [Reg.AssociationGrpInfo.GroupCommandListReport, Reg.AssociationGrpInfo.GroupInfoReport, Reg.AssociationGrpInfo.GroupNameReport]
    else []
  | .unknown _ _ => []

end Model.Dispatch

import Verif.Model.System
import Verif.Model.Dispatch
/-!
# Node objects with their command classes

The system of `Model/System.lean` (gateway with connections, application, waiting calls) with what the command classes of the node objects hold: a message that the gateway tells
is handled by `Node.handleMessage` (node.py:23-52, 160-180) with the handlers of Configuration, SensorMultilevel and AssociationGrpInfo, and the report on a supervised command is
sent to the node through the gateway. The handler of a group information report awaits a send after each step, and other messages are handled in between.

Everything that happens is something that can happen in `Model/System.lean`, so what is proved there holds here.

Simplifications: listeners of the node and of its command classes answer or raise anything, without awaiting; they do not change what the command classes hold.
-/
namespace Model.Device
open Model.App (Nd)
open Model.Classes
open Model.Listen (Ret Callback)

/-! ## Handlers -/

/-- What the command classes of a node object hold, for the classes with handlers. -/
structure Dev where
  config : Dict Int Config.Param
  sensor : Sensor.State
  agi : Agi.State
  deriving DecidableEq, Repr

/-- A new object. -/
def Dev.fresh : Dev := ⟨[], ⟨0, []⟩, Agi.fresh⟩

/-- `report.name` as it is stored: the attribute is converted with `str()`, so if the report ends before the name (None), it is the text `None` (util.py:91-105, AssociationGrpInfo.py:29). -/
def groupName (m : Msg) : List Nat :=
  match getAttr registry m "name" with
  | some (.str s) => s
  | _ => [78, 111, 110, 101]

/-- AssociationGrpInfo.py:188-193 -/
def nameReport (m : Msg) (d : Dev) : Dev × Py Ret :=
  match numAttr m "groupingIdentifier" with
  | none => (d, .ok (.bool true))
  | some g => let a := Agi.step d.agi (.name g (groupName m)); ({ d with agi := a.1 }, a.2.getD (.ok (.bool true)))

/-- AssociationGrpInfo.py:171-174; `list(None)` is evaluated first. -/
def commandsReport (m : Msg) (d : Dev) : Dev × Py Ret :=
  match getAttr registry m "commandClass" with
  | some (.pairs l) =>
    match numAttr m "groupingIdentifier" with
    | none => (d, .error .key)
    | some g => let a := Agi.step d.agi (.commands g l); ({ d with agi := a.1 }, a.2.getD (.ok (.bool true)))
  | _ => (d, .error .type)

/-- The groups of an information report with their profiles (AssociationGrpInfo.py:178-179). Attributes that are not set read as 0 (util.py:69-78); without the list, iterating None raises. -/
def infoGroups (m : Msg) : Py (List (Int × Int)) :=
  match getAttr registry m "groups" with
  | some (.groups l) => .ok (l.map fun g => ((Dict.get? g "groupingIdentifier").getD 0, (Dict.get? g "profile").getD 0))
  | _ => .error .type

/-- The handlers that do not await anything, by message. -/
def builtin (hid : Nat) : Option (Msg → Dev → Dev × Py Ret) :=
  if hid = Reg.Configuration.Report.hid then some fun m d => let a := Config.report d.config m; ({ d with config := a.1 }, a.2)
  else if hid = Reg.SensorMultilevel.Report.hid then some fun m d => (d, Sensor.report d.sensor m)
  else if hid = Reg.AssociationGrpInfo.GroupNameReport.hid then some nameReport
  else if hid = Reg.AssociationGrpInfo.GroupCommandListReport.hid then some commandsReport
  else none

/-- `__messageHandlers__` of the class with number `cls`. -/
def handler (cls hid : Nat) : Option (Msg → Dev → Dev × Py Ret) :=
  if (Dispatch.load cls false).handles.any (fun d => d.hid == hid) then builtin hid else none

/-- What the listeners answer: those of the command class, and those of the node. `none`: the listener does not have the method. -/
structure Heard where
  cls : List (Option (Py Ret))
  node : List (Option (Py Ret))
  deriving DecidableEq

/-- Listeners with these answers. -/
def callbacks (l : List (Option (Py Ret))) : List (Callback Dev) :=
  l.map fun a =>
    match a with
    | none => .missing
    | some r => .sync fun d => (d, r)

/-- node.py:295-297 -/
def supports (nd : Nd) (c : Nat) : Bool :=
  match Node.classes nd.info.classes with
  | .ok n => n.supported.mem c
  | .error _ => false

/-- The surroundings of a node object. (Sending the report on a supervised command is done below.) -/
def env (nd : Nd) (h : Heard) : Node.Env Dev where
  supported := supports nd
  handler := handler
  classListeners _ _ _ := callbacks h.cls
  listeners _ := callbacks h.node
  send _ d := (d, .ok true)

/-! ## The system -/

/-- The handler of a group information report: the told message, the node object, the message, and if it is still running, its number among the handlers of the class and
the call of `sendToNode` that it awaits. -/
structure Task where
  told : Nat
  nd : Nd
  msg : Msg
  pc : Option (Nat × Nat)
  deriving DecidableEq, Repr

/-- A report on a supervised command: the told message and the call of `sendToNode`. -/
structure Answer where
  told : Nat
  call : Nat
  deriving DecidableEq, Repr

/-- Everything. `devs` by object number. -/
structure State where
  sys : System.State
  devs : Nat → Dev
  tasks : List Task
  answers : List Answer

/-- A new application with a new gateway. -/
def init (own : Nat) : State := ⟨System.init own, fun _ => Dev.fresh, [], []⟩

/-- What an object holds is replaced. -/
def State.put (s : State) (obj : Nat) (d : Dev) : State := { s with devs := fun x => if x = obj then d else s.devs x }

/-- `Node.send` (node.py:237-241). -/
def State.send (s : State) (nd : Nd) (cmd : Msg) : State := { s with sys := System.step s.sys (.net (.send nd.root cmd 0 nd.ep 3)) }

/-- node.py:30-50: the command in the message `m` has been handled with the result `r`. -/
def finish (s : State) (told : Nat) (nd : Nd) (m : Msg) (r : Py Bool) : State :=
  if m.hid = Reg.Supervision.Get.hid then
    match r with
    | .error _ => s
    | .ok handled =>
      match Node.report m (if handled then 0xFF else 0x00) with
      | .error _ => s
      | .ok rep => { (s.send nd rep) with answers := s.answers ++ [⟨told, s.sys.net.calls.length⟩] }
  else s

/-- AssociationGrpInfo.py:180-184 -/
def groupCmd : Agi.Sent → Py Msg
  | .nameGet g => construct Reg.AssociationGrpInfo.GroupNameGet fun n => if n = "groupingIdentifier" then some (.num .pyint g) else none
  | .commandListGet g => construct Reg.AssociationGrpInfo.GroupCommandListGet fun n =>
      if n = "allowCache" then some (boolVal true) else if n = "groupingIdentifier" then some (.num .pyint g) else none

/-- The handler number `h` of the class has been started or continued by `o` and returns, sends or raises. `put` enters where it is. -/
def goOn (s : State) (told : Nat) (nd : Nd) (m : Msg) (h : Nat) (o : Agi.Op) (put : State → Option (Nat × Nat) → State) : State :=
  let d := s.devs nd.obj
  let a := Agi.step d.agi o
  let s := s.put nd.obj { d with agi := a.1 }
  match a.2 with
  | some r => finish (put s none) told nd m (r.map Ret.truthy)
  | none =>
    match a.1.sent.drop d.agi.sent.length with
    | [x] =>
      match groupCmd x with
      | .ok cmd => put (s.send nd cmd) (some (h, s.sys.net.calls.length))
      | .error e => put (s.put nd.obj { d with agi := (Agi.step a.1 (.sent h (.error e))).1 }) none
    | _ => put s none

/-- The handler of a group information report starts. -/
def start (s : State) (told : Nat) (nd : Nd) (m c : Msg) : State :=
  match infoGroups c with
  | .error _ => s
  | .ok l => goOn s told nd m (s.devs nd.obj).agi.handlers.length (.info l) fun s pc => { s with tasks := s.tasks ++ [⟨told, nd, m, pc⟩] }

/-- node.py:23-52, 160-180 for the told message number `told`, `m`, with the command `c` in it. -/
def handle (s : State) (told : Nat) (nd : Nd) (m c : Msg) (h : Heard) : State :=
  let o := (Waiter.messageReceived (s.sys.waiters nd.obj) c).2
  let s' := { s with sys := System.step s.sys (.deliver told) }
  match o with
  | .error _ => s'
  | .ok _ =>
    if c.hid = Reg.AssociationGrpInfo.GroupInfoReport.hid ∧ supports nd c.cmdClass then start s' told nd m c
    else
      let a := Node.handlePlain (env nd h) ⟨s.sys.waiters nd.obj, s.devs nd.obj, []⟩ c
      finish (s'.put nd.obj a.1.user) told nd m a.2

/-- The task for the told message `i` runs (application.py:70-96). -/
def deliver (s : State) (i : Nat) (h : Heard) : State :=
  if i ∈ s.sys.delivered then s
  else
    match s.sys.net.gw.told[i]? with
    | none => s
    | some t =>
      let s' := { s with sys := System.step s.sys (.deliver i) }
      match (Wire.received s.sys.app.nodes s.sys.app.own (fun _ => .ok (.bool true)) (.ok ()) t).1 with
      | [.handed nd] =>
        match t.message, System.offered t.message with
        | some m, some c => handle s i nd m c h
        | _, _ => s'
      | _ => s'

/-- What can happen. -/
inductive Op
  | deliver (i : Nat) (h : Heard)                                                       -- the task for the told message `i` runs
  | resume (j : Nat)                                                                    -- the handler `j` of a group information report continues after its send
  | sys (o : System.Op)                                                                 -- anything else that can happen
  | load (obj : Nat) (config : Dict Int Config.Param) (groups : Dict Int Agi.Group)     -- saved settings are loaded
  | sensor (obj : Nat) (d : Sensor.State)                                               -- the interview of SensorMultilevel goes on, or its settings are loaded

/-- One operation. -/
def step (s : State) : Op → State
  | .deliver i h => deliver s i h
  | .resume j =>
    match s.tasks[j]? with
    | some ⟨told, nd, m, some (h, k)⟩ =>
      match s.sys.net.calls[k]? with
      | some c =>
        match c.pc with
        | .done r => goOn s told nd m h (.sent h r) fun s pc => { s with tasks := s.tasks.set j ⟨told, nd, m, pc⟩ }
        | _ => s
      | none => s
    | _ => s
  | .sys o =>
    match o with
    | .deliver _ => s
    | o => { s with sys := System.step s.sys o }
  | .load obj config groups => s.put obj { s.devs obj with config := config, agi := { (s.devs obj).agi with groups := groups } }
  | .sensor obj d => s.put obj { s.devs obj with sensor := d }

/-- A schedule. -/
def run (s : State) (ops : List Op) : State := ops.foldl step s

end Model.Device

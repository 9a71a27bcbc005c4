import Verif.Model.Gateway
import Verif.Model.Application
/-!
# The application on the gateway

`Application.startup()` and `Application.nodeListUpdated()` (`Model/Application.lean`) on the gateway (`Model/Gateway.lean`): every call of the adapter is a coroutine of the gateway,
and the application goes on with what that coroutine returns. Everything else that can happen to the gateway happens in between.

Simplification: between the return of a coroutine of the gateway and what the application does next other things can happen. In the code they are one step of the task;
what is proved holds for more schedules than there are.
-/
namespace Model.Boot
open Model.App (Info Nd Pc Ans Kind)
open Model.Gateway (Nm Ret)

/-- `list(report.commandClass)` (application.py:39, 53): `None` raises TypeError. -/
def classList (m : Msg) : Py (List Nat) :=
  match m.attr "commandClass" with
  | some (.bytes b) => .ok (b.map UInt8.toNat)
  | _ => .error .type

/-- An integer attribute. `commandClass` is the last attribute of both reports: if it is there the others are. -/
def number (m : Msg) (name : String) : Nat := ((m.num? name).getD 0).toNat

/-- application.py:53-61 -/
def nodeInfo (m : Msg) : Py Info :=
  (classList m).map fun l => ⟨l, number m "basicDeviceClass", number m "genericDeviceClass", number m "specificDeviceClass", m.flag "listening"⟩

/-- application.py:39-42. The basic device class and whether it is listening are those of the parent (node.py:308-326). -/
def endPointInfo (parent : Nd) (m : Msg) : Py Info :=
  (classList m).map fun l => ⟨l, parent.info.basic, number m "genericDeviceClass", number m "specificDeviceClass", parent.info.listening⟩

/-- What the application makes of the value returned by the gateway, by what it was waiting for. Sets are
iterated in an arbitrary order. Other values are not returned by these calls. -/
def answerOf (pc : Pc) (r : Py Ret) (order : List Nat) : Option Ans :=
  match pc with
  | .list _ =>                                                                -- application.py:100, 170
    match r with
    | .ok (.nodes l) => some (.list (.ok (Gateway.iter l order)))
    | .ok _ => none
    | .error e => some (.list (.error e))
  | .info _ _ _ _ =>                                                          -- application.py:52-53
    match r with
    | .ok (.msg m) => some (.info (nodeInfo m))
    | .ok _ => none
    | .error e => some (.info (.error e))
  | .eps _ _ _ _ =>                                                           -- application.py:65-66: `range(1, endpoints + 1)`
    match r with
    | .ok (.num v) => some (.eps (.ok v.toNat))
    | .ok _ => none
    | .error e => some (.eps (.error e))
  | .cap _ nd _ _ _ _ =>                                                      -- application.py:38-39
    match r with
    | .ok (.msg m) => some (.cap (endPointInfo nd m))
    | .ok _ => none
    | .error e => some (.cap (.error e))
  | .failed =>                                                                -- application.py:173: iterating over `None` raises TypeError
    match r with
    | .ok (.nodes _) => some (.failed (.ok ()))
    | .ok (.val (some _)) => some (.failed (.ok ()))
    | .ok (.val none) => some (.failed (.error .type))
    | .ok _ => none
    | .error e => some (.failed (.error e))
  | _ => none

/-- The call of the adapter the application is waiting for. -/
def query : Pc → Option Nm
  | .list _ => some .getNodeList
  | .info _ n _ _ => some (.getNodeInfo n)
  | .eps _ nd _ _ => some (.getMultiChannelEndPoints nd.root)
  | .cap _ nd ep _ _ _ => some (.getMultiChannelCapability nd.root ep)
  | .failed => some .getFailedNodeList
  | _ => none

/-- The gateway and the application. `waits i` is the number of the coroutine of the gateway that call `i` of the application awaits; `updates` counts the calls of `nodeListUpdated()`. -/
structure State where
  gw : Gateway.State
  app : App.State
  waits : Nat → Option Nat
  updates : Nat

/-- A new application with a new gateway. -/
def init : State := ⟨Gateway.init, App.fresh 0, fun _ => none, 0⟩

/-- `adapter.nodeId`. Simplification: `None` (after a node list report without it) is 0, which is no node of a list either. -/
def ownId (g : Gateway.State) : Nat := (g.nodeId.getD 0).toNat

/-- Call `i` calls the adapter, if that is what it does next. -/
def issue (s : State) (i : Nat) : State :=
  match (s.app.calls[i]?).bind query with
  | none => { s with waits := fun j => if j = i then none else s.waits j }
  | some c => { s with gw := Gateway.step s.gw (.nm c), waits := fun j => if j = i then some s.gw.jobs.length else s.waits j }

/-- Call `i` goes on with an answer. -/
def goOn (s : State) (i : Nat) (a : Ans) : State :=
  issue { s with app := App.answer { s.app with own := ownId s.gw } i a } i

/-- What can happen. -/
inductive Op
  | startup                             -- startup() is called
  | update                              -- a task of nodeListUpdated() starts (util.py:152-155); one for each time the gateway speaks it
  | resume (i : Nat) (order : List Nat) -- call `i` goes on with what the gateway's coroutine returned
  | asked (i : Nat) (r : Py Unit)       -- the listeners have answered call `i`
  | gw (o : Gateway.Op)                 -- anything that can happen to the gateway
  deriving DecidableEq, Repr

/-- A new call. -/
def begin (s : State) (k : Kind) : State := issue { s with app := App.step s.app (.start k) } s.app.calls.length

/-- One operation. -/
def step (s : State) : Op → State
  | .startup => begin s .startup
  | .update => if s.updates < s.gw.listUpdated then begin { s with updates := s.updates + 1 } .update else s
  | .resume i order =>
    match s.app.calls[i]?, s.waits i with
    | some pc, some j =>
      match s.gw.jobs[j]? with
      | some (.done r) =>
        match answerOf pc r order with
        | some a => goOn s i a
        | none => s
      | _ => s
    | _, _ => s
  | .asked i r =>
    match s.waits i with
    | none => goOn s i (.asked r)
    | some _ => s
  | .gw o => { s with gw := Gateway.step s.gw o }

/-- A schedule. -/
def run (s : State) (ops : List Op) : State := ops.foldl step s

end Model.Boot

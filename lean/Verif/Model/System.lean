import Verif.Model.ToNode
import Verif.Model.Wire
/-!
# Asking a node

The gateway with its connections (`Model/ToNode.lean`), the application (`Model/Application.lean`) and the node objects put together, for
`Node.sendAndReceive` (node.py:243-252). Any number of calls for any nodes overlap with everything else that can happen.

What the gateway tells becomes a task of `Application.messageReceived` (util.py:152-155, application.py:70-96) that runs later: the operation `deliver`. Of a node object only
the waiting calls are kept; what else `handleMessage` does (C49, C50) does not change them.

Simplification: what the adapter answers to the application (node lists, node information) is not taken from the gateway of this model but arbitrary. The node objects have
clocks of their own.
-/
namespace Model.System
open Model.App (Nd)

/-- A call of `Node.sendAndReceive`: the node object, its number among the waiting calls of the object and its number among the calls of `sendToNode`. -/
structure Ask where
  nd : Nd
  task : Nat
  call : Nat
  deriving DecidableEq, Repr

/-- Everything. `waiters` are the `_sessions` of the node objects, by object number. `delivered` are the numbers of the told messages whose task has run. -/
structure State where
  net : ToNode.State
  app : App.State
  waiters : Nat → Waiter.State
  asks : List Ask
  delivered : List Nat

/-- A new application with a new gateway. -/
def init (own : Nat) : State := ⟨ToNode.init, App.fresh own, fun _ => Waiter.init, [], []⟩

/-- Something happens to the waiting calls of a node object. -/
def State.wait (s : State) (obj : Nat) (o : Waiter.Op) : State :=
  { s with waiters := fun x => if x = obj then Waiter.step (s.waiters obj) o else s.waiters x }

/-- The message that handleMessage offers to the waiting calls (node.py:27-30, 164). With `None` it raises before that. -/
def offered (m : Option Msg) : Option Msg :=
  match m with
  | none => none
  | some m => if m.hid = Reg.Supervision.Get.hid then m.command else some m

/-- What can happen. -/
inductive Op
  | ask (nd : Nd) (cmd : Msg) (hid timeout : Nat)   -- nd.sendAndReceive() is called
  | sent (a : Nat)                                  -- call `a` continues after its send
  | deliver (i : Nat)                               -- the task for the told message `i` runs
  | net (o : ToNode.Op)                             -- anything that can happen to the gateway
  | app (o : App.Op)                                -- anything that can happen to the application
  | waiter (obj : Nat) (o : Waiter.Op)              -- a waiting call of the object goes on, or `waitForMessage()` is called

/-- What is not done by the other operations. -/
def own : Waiter.Op → Bool
  | .call .plain _ _ | .tick | .timer _ | .resume _ | .cancelDone _ | .kill _ => true
  | _ => false

/-- The waiting call is released when its send has ended (node.py:247-251). -/
def sendEnded (r : Py Bool) (task : Nat) : Waiter.Op :=
  match r with
  | .ok b => .sendDone task b
  | .error e => .sendRaise task e

/-- One operation. -/
def step (s : State) : Op → State
  | .ask nd cmd hid timeout =>
    -- node.py:247-248; the default timeout of send() is 3
    let s := { s with asks := s.asks ++ [(⟨nd, (s.waiters nd.obj).tasks.length, s.net.calls.length⟩ : Ask)] }
    let s := s.wait nd.obj (.call .node hid timeout)
    { s with net := ToNode.nodeSend s.net nd.root nd.ep cmd }
  | .sent a =>
    match s.asks[a]? with
    | none => s
    | some q =>
      match s.net.calls[q.call]? with
      | none => s
      | some c =>
        match c.pc with
        | .done r => s.wait q.nd.obj (sendEnded r q.task)
        | _ => s
  | .deliver i =>
    if i ∈ s.delivered then s
    else
      match s.net.gw.told[i]? with
      | none => s
      | some t =>
        let s := { s with delivered := s.delivered ++ [i] }
        match (Wire.received s.app.nodes s.app.own (fun _ => .ok (.bool true)) (.ok ()) t).1 with
        | [.handed nd] =>
          match offered t.message with
          | some m => s.wait nd.obj (.message m)
          | none => s
        | _ => s
  | .net o => { s with net := ToNode.step s.net o }
  | .app o => { s with app := App.step s.app o }
  | .waiter obj o => if own o then s.wait obj o else s

/-- A schedule. -/
def run (s : State) (ops : List Op) : State := ops.foldl step s

end Model.System

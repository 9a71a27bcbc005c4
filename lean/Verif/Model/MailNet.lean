import Verif.Model.Mailbox
import Verif.Model.ToNode
/-!
# The mailbox in the network

The mailbox (`Model/Mailbox.lean`) as a listener of the gateway with its connections to nodes (`Model/ToNode.lean`): the messages it receives are those the gateway tells its listeners, what
it sends is sent with `ZIPGateway.sendToNode`, and its handlers and heartbeats go on when these calls have ended. Everything else that can happen to the gateway happens in between,
other calls of `sendToNode` included.

Simplification: a heartbeat that is stopped while it sends leaves its call of `sendToNode` behind, which may go on or stay where it is (cancelling it makes it stay).
-/
namespace Model.MailNet
open Model.Mailbox (Src Ev)

/-- The gateway with its connections, the mailbox, the numbers of the told messages that the mailbox has received, and who made which call of `sendToNode`. -/
structure State where
  net : ToNode.State
  mail : Mailbox.State
  received : List Nat
  sends : List (Src × Nat)
  deriving DecidableEq, Repr

/-- mailbox.py:75-79, zipgateway.py:26-32 -/
def init : State := ⟨ToNode.init, Mailbox.fresh, [], []⟩

/-- The mailbox calls `sendToNode` with the message it has just made (mailbox.py:59-69, 93-100, 102-110, 123-131). The message can always be made (`Model.MailNet.constructed`). -/
def issue (s : State) (mail : Mailbox.State) : State :=
  match mail.log.drop s.mail.log.length with
  | [.sent src o] =>
    match o.msg with
    | .ok m => { s with mail := mail, net := ToNode.step s.net (.send o.node m 0 0 3), sends := s.sends ++ [(src, s.net.calls.length)] }
    | .error _ => { s with mail := mail }
  | _ => { s with mail := mail }

/-- Something happens to the mailbox. -/
def act (s : State) (o : Mailbox.Op) : State := issue s (Mailbox.step s.mail o)

/-- The latest call of `sendToNode` of a handler or heartbeat. -/
def latest (sends : List (Src × Nat)) (src : Src) : Option Nat := (sends.reverse.find? (fun p => p.1 = src)).map (·.2)

/-- What it gave, if it has ended. -/
def result (s : State) (src : Src) : Option (Py Bool) :=
  match latest s.sends src with
  | none => none
  | some k =>
    match s.net.calls[k]? with
    | none => none
    | some d =>
      match d.pc with
      | .done r => some r
      | _ => none

/-- What can happen. -/
inductive Op
  | deliver (i : Nat)      -- the task for the told message `i` runs (util.py:152-155)
  | proceed (src : Src)    -- a handler or heartbeat goes on after its call of `sendToNode`
  | wake (j : Nat)         -- the sleep of heartbeat `j` ends
  | net (o : ToNode.Op)    -- anything that can happen to the gateway
  deriving DecidableEq, Repr

/-- One operation. -/
def step (s : State) : Op → State
  | .deliver i =>
    if i ∈ s.received then s
    else
      match s.net.gw.told[i]? with
      | none => s
      | some t =>
        let s := { s with received := s.received ++ [i] }
        match t.message with
        | none => s                                           -- mailbox.py:145-163: None is not a mailbox message
        | some m => act s (.received t.node m)
  | .proceed (.call i) =>
    match result s (.call i) with
    | some r => act s (.sendEnds i r)
    | none => s
  | .proceed (.beat j) =>
    match result s (.beat j) with
    | some r => act s (.beatEnds j r)
    | none => s
  | .wake j => act s (.tick j)
  | .net o => { s with net := ToNode.step s.net o }

/-- A schedule. -/
def run (s : State) (ops : List Op) : State := ops.foldl step s

end Model.MailNet

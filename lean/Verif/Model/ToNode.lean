import Verif.Model.Gateway
/-!
# Sending to nodes

`ZIPGateway.sendToNode` (zipgateway.py:295-297), used by `Node.send` (node.py:237-241), by the mailbox and by the application, on top of the gateway with its
connections (`Model/Gateway.lean`): any number of overlapping calls.
-/
namespace Model.ToNode
open Spec (Bytes)

/-- Where a call of `sendToNode` is. -/
inductive Pc
  | connecting (job : Nat)           -- awaits the coroutine `job` of connectToNode
  | sending (k i : Nat)              -- awaits the send number `i` on the connection `k`
  | done (r : Py Bool)
  deriving DecidableEq, Repr

/-- A call of `sendToNode` with its arguments. -/
structure Call where
  node : Nat
  cmd : Msg
  sourceEP : Int
  destEP : Int
  timeout : Nat
  pc : Pc
  deriving DecidableEq, Repr

/-- The gateway and the calls. -/
structure State where
  gw : Gateway.State
  calls : List Call
  deriving DecidableEq, Repr

def init : State := ⟨Gateway.init, []⟩

/-- How many sends the connection `k` has seen. -/
def sendCount (g : Gateway.State) (k : Nat) : Nat :=
  match g.links[k]? with
  | some l => l.conn.sends.length
  | none => 0

/-- The result of the send `i` on the connection `k`, if it has ended. -/
def linkResult (g : Gateway.State) (k i : Nat) : Option (Py Bool) :=
  match g.links[k]? with
  | none => none
  | some l =>
    match l.conn.sends[i]? with
    | none => none
    | some t =>
      match t.pc with
      | .done r => some r
      | _ => none

/-- zipgateway.py:296-297: the call continues if what it awaits has ended. (An exception raised by `conn.send` at once is passed on at the next continuation.) -/
def proceed (s : State) (i : Nat) : State :=
  match s.calls[i]? with
  | none => s
  | some c =>
    match c.pc with
    | .connecting j =>
      match s.gw.jobs[j]? with
      | some (.done (.ok (.conn k))) =>
        ⟨Gateway.step s.gw (.link k (.send c.cmd c.sourceEP c.destEP c.timeout)), s.calls.set i { c with pc := .sending k (sendCount s.gw k) }⟩
      | some (.done (.error e)) => ⟨s.gw, s.calls.set i { c with pc := .done (.error e) }⟩
      | _ => s
    | .sending k m =>
      match linkResult s.gw k m with
      | some r => ⟨s.gw, s.calls.set i { c with pc := .done r }⟩
      | none => s
    | .done _ => s

/-- What can happen. -/
inductive Op
  | send (node : Nat) (cmd : Msg) (sourceEP destEP : Int) (timeout : Nat)   -- sendToNode() is called
  | resume (i : Nat)                                                        -- call `i` continues
  | gw (o : Gateway.Op)                                                     -- anything else that can happen to the gateway
  deriving DecidableEq, Repr

/-- zipgateway.py:295-297. With a connection at hand, connectToNode returns without suspending (zipgateway.py:97-98), so the message is sent at once. -/
def sendToNode (s : State) (node : Nat) (cmd : Msg) (sourceEP destEP : Int) (timeout : Nat) : State :=
  proceed ⟨Gateway.step s.gw (.connectToNode node), s.calls ++ [⟨node, cmd, sourceEP, destEP, timeout, .connecting s.gw.jobs.length⟩]⟩ s.calls.length

/-- One operation. -/
def step (s : State) : Op → State
  | .send node cmd src dst timeout => sendToNode s node cmd src dst timeout
  | .resume i => proceed s i
  | .gw o => { s with gw := Gateway.step s.gw o }

/-- A schedule. -/
def run (s : State) (ops : List Op) : State := ops.foldl step s

/-- node.py:237-241: `Node.send` of the end point `endpoint` of the node `nodeId` (0 is the node itself). -/
def nodeSend (s : State) (nodeId endpoint : Nat) (cmd : Msg) (timeout : Nat := 3) : State := step s (.send nodeId cmd 0 endpoint timeout)

end Model.ToNode

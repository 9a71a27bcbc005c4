import Verif.Model.Conn
/-!
# The gateway

`ZIPGateway` (zipgateway.py) under asyncio: the network management calls, the node table, address lookups, unsolicited messages and the connections
to the nodes. It contains the gateway's own connection (`Model/Conn.lean`; `ZIPGateway` is a subclass of `ZIPConnection`).

A suspended coroutine is a `Job`. The operation `job i` lets coroutine `i` continue if what it awaits has happened. As in `Model/Waiter.lean` the schedule is
adversarial. Python sets are iterated in an arbitrary order, which the schedule chooses.

Not modelled: link-local senders with a scope id (whose address `ipaddress` of Python 3.7 and 3.8 rejects), the listening socket, closing.
-/
namespace Model.Gateway
open Spec (Bytes)

/-- The calls that send a network management command (zipgateway.py:34-92, 108-179, 206-245), with their arguments. -/
inductive Nm
  | addNode (txOptions : Int)
  | addNodeDSKSet (accept : Bool) (inputDSKLength : Int) (dsk : Bytes)
  | addNodeKeysSet (grantCSA accept : Bool) (grantedKeys : Int)
  | addNodeStop
  | getFailedNodeList
  | getMultiChannelEndPoints (nodeId : Int)
  | getMultiChannelCapability (nodeId endpoint : Int)
  | getNodeList
  | getNodeInfo (nodeId : Int)
  | removeFailedNode (nodeId : Int)
  | removeNode
  | removeNodeStop
  deriving DecidableEq, Repr

/-- The class of the command. -/
def Nm.cls : Nm → MsgDef
  | .addNode _ => Reg.NetworkManagementInclusion.NodeAdd                                        -- zipgateway.py:36
  | .addNodeDSKSet .. => Reg.NetworkManagementInclusion.NodeAddDSKSet                           -- zipgateway.py:52
  | .addNodeKeysSet .. => Reg.NetworkManagementInclusion.NodeAddKeysSet                         -- zipgateway.py:65
  | .addNodeStop => Reg.NetworkManagementInclusion.NodeAdd                                      -- zipgateway.py:79
  | .getFailedNodeList => Reg.NetworkManagementProxy.FailedNodeListGet                          -- zipgateway.py:110
  | .getMultiChannelEndPoints _ => Reg.NetworkManagementProxy.MultiChannelEndPointGet           -- zipgateway.py:121
  | .getMultiChannelCapability .. => Reg.NetworkManagementProxy.MultiChannelCapabilityGet       -- zipgateway.py:137
  | .getNodeList => Reg.NetworkManagementProxy.NodeListGet                                      -- zipgateway.py:154
  | .getNodeInfo _ => Reg.NetworkManagementProxy.NodeInfoCachedGet                              -- zipgateway.py:170
  | .removeFailedNode _ => Reg.NetworkManagementInclusion.FailedNodeRemove                      -- zipgateway.py:210
  | .removeNode => Reg.NetworkManagementInclusion.NodeRemove                                    -- zipgateway.py:225
  | .removeNodeStop => Reg.NetworkManagementInclusion.NodeRemove                                -- zipgateway.py:237

/-- A keyword argument. -/
abbrev kw1 (name : String) (v : Val) (rest : String → Option Val) : String → Option Val := fun n => if n = name then some v else rest n

/-- The keyword arguments of the command other than `seqNo`. Modes: NetworkManagementInclusion.py:125-130, 287-291. -/
def Nm.args : Nm → String → Option Val
  | .addNode tx => kw1 "mode" (.num .pyint 7) <| kw1 "txOptions" (.num .pyint tx) fun _ => none
  | .addNodeDSKSet a l d => kw1 "accept" (boolVal a) <| kw1 "inputDSKLength" (.num .pyint l) <| kw1 "dsk" (.bytes d) fun _ => none
  | .addNodeKeysSet c a k => kw1 "grantCSA" (boolVal c) <| kw1 "accept" (boolVal a) <| kw1 "grantedKeys" (.num .pyint k) fun _ => none
  | .addNodeStop => kw1 "mode" (.num .pyint 5) <| kw1 "txOptions" (.num .pyint 0) fun _ => none
  | .getFailedNodeList => fun _ => none
  | .getMultiChannelEndPoints n => kw1 "nodeID" (.num .pyint n) fun _ => none
  | .getMultiChannelCapability n e => kw1 "nodeID" (.num .pyint n) <| kw1 "endPoint" (.num .pyint e) fun _ => none
  | .getNodeList => fun _ => none
  | .getNodeInfo n => kw1 "maxAge" (.num .pyint 15) <| kw1 "nodeID" (.num .pyint n) fun _ => none
  | .removeFailedNode n => kw1 "nodeID" (.num .pyint n) fun _ => none
  | .removeNode => kw1 "mode" (.num .pyint 1) fun _ => none
  | .removeNodeStop => kw1 "mode" (.num .pyint 5) fun _ => none

/-- The command. -/
def Nm.command (c : Nm) (seqNo : Nat) : Py Msg := construct c.cls (kw1 "seqNo" (.num .pyint seqNo) c.args)

/-- The report a call waits for, with its timeout; `none` for the calls that only send. -/
def Nm.waitsFor : Nm → Option (Nat × Nat)
  | .getFailedNodeList => some (0x520C, 3)             -- zipgateway.py:112
  | .getMultiChannelEndPoints _ => some (0x5206, 3)    -- zipgateway.py:125
  | .getMultiChannelCapability .. => some (0x5208, 3)  -- zipgateway.py:141
  | .getNodeList => some (0x5202, 3)                   -- zipgateway.py:156
  | .getNodeInfo _ => some (0x5204, 3)                 -- zipgateway.py:174
  | .removeFailedNode _ => some (0x3408, 10)           -- zipgateway.py:216
  | _ => none

/-- Values returned by coroutines. `msg none` is None. -/
inductive Ret
  | unit
  | bool (b : Bool)
  | num (v : Int)
  | val (v : Option Val)
  | msg (m : Msg)
  | nodes (l : List Nat)
  | conn (k : Nat)
  deriving DecidableEq, Repr

/-- What the caller of a sendAndReceive does with the answer. -/
inductive Ask
  | nm (c : Nm)                           -- a network management call other than getNodeList
  | list                                  -- getNodeList
  | setup                                 -- getNodeList called by setupUnsolicitedConnection
  | mode (mode : Int)                     -- setGatewayMode
  deriving DecidableEq, Repr

/-- Coroutines. -/
inductive Job
  | sent (k : Nat)                                     -- awaits the send `k`, then returns True
  | ask (a : Ask) (task send : Nat)                    -- in sendAndReceive
  | report (cur : Nat) (todo : List Nat) (task : Nat)  -- __handleNodeListReport__ looking up the node `cur`
  | setup (cur : Nat) (todo : List Nat) (task : Nat)   -- setupUnsolicitedConnection looking up the node `cur`
  | connect (n : Nat) (task : Nat)                     -- connectToNode looking up the node
  | opening (n : Nat) (k : Nat)                        -- connectToNode waiting for the socket of connection `k`
  | done (r : Py Ret)
  deriving DecidableEq, Repr

/-- A message told to the listeners with `messageReceived`: node id, source end point, message and flags. -/
structure Told where
  node : Nat
  sourceEP : Option Int
  message : Option Msg
  flags : Option Val
  deriving DecidableEq, Repr

/-- A `ZIPConnection` created by connectToNode. `node` (the node it was created for) is not stored in the code; it is only used to state properties. -/
structure Link where
  node : Nat
  address : Bytes
  conn : Conn.State
  deriving DecidableEq, Repr

/-- The gateway. `nodes` is `_nodes`; the value is the address, `none` for an entry without `"ip"` (or with `None`). `listUpdated` counts how often
`nodeListUpdated` was spoken, `told` are the `messageReceived`s, `acks` the datagrams sent on the unsolicited connection with their destination. -/
structure State where
  conn : Conn.State
  nmSeq : Nat
  nodes : Dict Nat (Option Bytes)
  conns : Dict Nat Nat
  links : List Link
  jobs : List Job
  nodeId : Option Int
  listUpdated : Nat
  told : List Told
  acks : List (Bytes × Bytes)
  deriving DecidableEq, Repr

/-- adapter.py:68-71, zipgateway.py:26-32 -/
def init : State := ⟨Conn.init, 0, [], [], [], [], some 0, 0, [], []⟩

def State.setJob (s : State) (i : Nat) (j : Job) : State := { s with jobs := s.jobs.set i j }
def State.addJob (s : State) (j : Job) : State := { s with jobs := s.jobs ++ [j] }

/-- The exception a send ended with at once (it could not be composed, or its number is taken). -/
def sendError (s : Conn.State) (k : Nat) : Option PyErr :=
  match s.sends[k]? with
  | some t => match t.pc with
    | .done (.error e) => some e
    | _ => none
  | none => none

/-- A coroutine that awaits the send `k` and then returns True; `c` is the connection after the call of `send`. -/
def afterSend (s : State) (c : Conn.State) (k : Nat) : State × Job :=
  match sendError c k with
  | some e => ({ s with conn := c }, .done (.error e))
  | none => ({ s with conn := c }, .sent k)

/-- `await self.send(cmd)` (adapter.py:190, zipconnection.py:141), up to the first suspension, in a coroutine that then returns True. -/
def startSend (s : State) (cmd : Msg) : State × Job := afterSend s (Conn.send s.conn cmd 0 0 3) s.conn.sends.length

/-- A coroutine in sendAndReceive that awaits the send `k`, to wait for a message with the call `t`. -/
def afterAskSend (s : State) (a : Ask) (t : Nat) (c : Conn.State) (k : Nat) : State × Job :=
  match sendError c k with
  | some e => ({ s with conn := { c with w := Waiter.step c.w (.sendRaise t e) } }, .done (.error e))
  | none => ({ s with conn := c }, .ask a t k)

/-- adapter.py:209-214, up to the first suspension. -/
def startAsk (s : State) (a : Ask) (cmd : Msg) (hid timeout : Nat) : State × Job :=
  afterAskSend s a s.conn.w.tasks.length (Conn.send { s.conn with w := Waiter.step s.conn.w (.call .adapter hid timeout) } cmd 0 0 3) s.conn.sends.length

/-- A network management call, up to its first suspension. getNodeList returns the cached list if there is one (zipgateway.py:150-152). -/
def startNm (s : State) (c : Nm) : State × Job :=
  if c = .getNodeList ∧ s.nodes ≠ [] then (s, .done (.ok (.nodes s.nodes.keys)))
  else
    let s := { s with nmSeq := s.nmSeq + 1 }
    match c.command s.nmSeq with
    | .error e => (s, .done (.error e))
    | .ok cmd =>
      match c.waitsFor with
      | none => startSend s cmd
      | some (hid, timeout) => startAsk s (if c = .getNodeList then .list else .nm c) cmd hid timeout

/-- The value returned for an answer (zipgateway.py:117, 131, 147, 179, 220). A missing attribute is `None`; adding to it raises TypeError. -/
def answer (c : Nm) (m : Msg) : Py Ret :=
  match c with
  | .getFailedNodeList => .ok (.val (getAttr registry m "failedNodeList"))
  | .getMultiChannelEndPoints _ =>
    match m.num? "individualEndPoints", m.num? "aggregatedEndPoints" with
    | some a, some b => .ok (.num (a + b))
    | _, _ => .error .type
  | .removeFailedNode _ => .ok (.val (getAttr registry m "status"))
  | _ => .ok (.msg m)

/-- The value returned when there is no answer in time (zipgateway.py:116, 130, 146, 178, 219; REMOVE_FAIL is 2, NetworkManagementInclusion.py:66). -/
def noAnswer (c : Nm) : Ret :=
  match c with
  | .getFailedNodeList => .nodes []
  | .getMultiChannelEndPoints _ => .num 0
  | .getMultiChannelCapability .. => .msg (.known 0x5208 [])
  | .getNodeInfo _ => .msg (.known 0x5204 [])
  | .removeFailedNode _ => .num 2
  | _ => .unit

/-- zipgateway.py:201: the solicitation. -/
def solicitation (n : Nat) : Py Bytes :=
  (construct Reg.ZipND.ZipInvNodeSolicitation (kw1 "local" (boolVal false) <| kw1 "nodeId" (.num .pyint n) fun _ => none)).bind compose

/-- zipgateway.py:202-203, up to the suspension in waitForMessage. Gives the index of the waiting call. -/
def lookup (s : State) (pkt : Py Bytes) : State × Py Nat :=
  match pkt with
  | .error e => (s, .error e)
  | .ok b =>
    let c := Conn.transmit s.conn b
    ({ s with conn := { c with w := Waiter.step c.w (.call .plain 0x5801 3) } }, .ok c.w.tasks.length)

/-- zipgateway.py:199-203. -/
def ipOfNode (s : State) (n : Nat) : State × Py Nat := lookup s (solicitation n)

/-- `response.ipv6` (zipgateway.py:204). -/
def advertised (m : Msg) : Option Bytes :=
  match m.attr "ipv6" with
  | some (.ipv6 b) => some b
  | _ => none

/-- An iteration order of a set. -/
def iter (l order : List Nat) : List Nat := if order.isPerm l then order else l

/-- `report.nodes`; `None` if the report ends before it. -/
def reportNodes (m : Msg) : Option (List Nat) :=
  match m.attr "nodes" with
  | some (.nodeSet l) => some l
  | _ => none

/-- The loop zipgateway.py:191-197, up to the next suspension. -/
def reportLoop (s : State) : List Nat → State × Job
  | [] => ({ s with listUpdated := s.listUpdated + 1 }, .done (.ok .unit))
  | n :: todo =>
    if s.nodes.mem n then reportLoop s todo
    else
      match ipOfNode s n with
      | (s, .error e) => (s, .done (.error e))
      | (s, .ok t) => (s, .report n todo t)

/-- zipgateway.py:181-197. Membership in and iteration over `None` raise TypeError. -/
def handleNodeListReport (s : State) (report : Msg) (order : List Nat) : State × Job :=
  match reportNodes report with
  | none => (s, .done (.error .type))
  | some l => reportLoop { s with nodes := s.nodes.filter (fun p => p.1 ∈ l) } (iter l order)

/-- The loop zipgateway.py:330-332, up to the next suspension. A node that was removed meanwhile raises KeyError. -/
def setupLoop (s : State) : List Nat → State × Job
  | [] => (s, .done (.ok .unit))
  | n :: todo =>
    match s.nodes.get? n with
    | none => (s, .done (.error .key))
    | some (some _) => setupLoop s todo
    | some none =>
      match ipOfNode s n with
      | (s, .error e) => (s, .done (.error e))
      | (s, .ok t) => (s, .setup n todo t)

/-- zipgateway.py:162-164: `_nodeId` and `_nodes` are replaced. Iterating over `None` raises TypeError. -/
def storeList (s : State) (m : Msg) : State × Py (List Nat) :=
  let s := { s with nodeId := m.num? "nodeListControllerId" }
  match reportNodes m with
  | none => (s, .error .type)
  | some l => ({ s with nodes := l.map (fun n => (n, none)) }, .ok l)

/-- zipgateway.py:95-106, up to the first suspension. -/
def connectToNode (s : State) (n : Nat) : State × Job :=
  match s.conns.get? n with
  | some k => (s, .done (.ok (.conn k)))
  | none =>
    match ipOfNode s n with
    | (s, .error e) => (s, .done (.error e))
    | (s, .ok t) => (s, .connect n t)

/-- zipgateway.py:247-259. -/
def onMessageReceived (s : State) (k : Nat) (m : Msg) : State :=
  let sourceEP : Option Int := if m.hid = 0x2302 then m.num? "sourceEP" else some 0
  let message : Option Msg := if m.hid = 0x2302 then m.command else some m
  match s.conns.find? (fun p => p.2 = k) with
  | some (n, _) => { s with told := s.told ++ [⟨n, sourceEP, message, some (.num .pyint 0)⟩] }
  | none => s

/-- zipgateway.py:261-293 with the sender's address; the coroutine for a node list report is started. `getattr` of an attribute the message does not have gives `None`;
calling `None` as `response` raises TypeError. -/
def onUnsolicitedMessage (s : State) (pkt sender : Bytes) (order : List Nat) : State × Py Bool :=
  match decode pkt with
  | .error e => (s, .error e)
  | .ok p =>
    match p.command.filter (fun c => c.hid = 0x5202) with
    | some report =>
      let (s, j) := handleNodeListReport s report order
      (s.addJob j, .ok true)
    | none =>
      match s.nodes.find? (fun e => e.2 = some sender) with
      | none => (s, .ok false)
      | some (n, _) =>
        let told : Told := ⟨n, p.num? "sourceEP", p.command, getAttr registry p "headerExtension"⟩
        if p.flag "ackRequest" then
          if p.hid = 0x2302 then
            match (zipResponse p true).bind compose with
            | .error e => (s, .error e)
            | .ok b => ({ s with acks := s.acks ++ [(b, sender)], told := s.told ++ [told] }, .ok true)
          else (s, .error .type)
        else ({ s with told := s.told ++ [told] }, .ok true)

/-- The state of a waiting call. -/
def taskDone (s : State) (t : Nat) : Option (Py Msg) :=
  match s.conn.w.tasks[t]? with
  | some u => match u.pc with
    | .done r => some r
    | _ => none
  | none => none

/-- The result of a send, if it has ended. -/
def sendResult (s : State) (k : Nat) : Option (Py Bool) :=
  match s.conn.sends[k]? with
  | some u => match u.pc with
    | .done r => some r
    | _ => none
  | none => none

/-- The continuation after the answer, or the exception, of a sendAndReceive. -/
def afterAsk (s : State) (a : Ask) (r : Py Msg) (order : List Nat) : State × Job :=
  match a, r with
  | .nm c, .ok m => (s, .done (answer c m))
  | .nm c, .error .timeout => (s, .done (.ok (noAnswer c)))
  | .list, .ok m =>
    match storeList s m with
    | (s, .ok l) => (s, .done (.ok (.nodes l)))
    | (s, .error e) => (s, .done (.error e))
  | .list, .error .timeout => (s, .done (.ok (.nodes [])))                     -- zipgateway.py:159-161
  | .setup, .ok m =>
    match storeList s m with
    | (s, .ok l) => setupLoop s (iter l order)
    | (s, .error e) => (s, .done (.error e))
  | .setup, .error .timeout => (s, .done (.ok .unit))
  | .mode mode, .ok m =>
    -- zipgateway.py:307-312
    if m.num? "mode" = some mode then (s, .done (.ok (.bool true)))
    else
      match construct Reg.ZipGateway.GatewayModeSet (kw1 "mode" (.num .pyint mode) fun _ => none) with
      | .error e => (s, .done (.error e))
      | .ok cmd => startSend s cmd
  | .mode _, .error .timeout => (s, .done (.ok (.bool false)))
  | _, .error e => (s, .done (.error e))

/-- Coroutine `i` continues. -/
def stepJob (s : State) (i : Nat) (order : List Nat) : State :=
  match s.jobs[i]? with
  | none => s
  | some (.sent k) =>
    match sendResult s k with
    | none => s
    | some (.ok _) => s.setJob i (.done (.ok (.bool true)))       -- zipgateway.py:42-46: send() returns False instead of raising TimeoutError
    | some (.error e) => s.setJob i (.done (.error e))
  | some (.ask a t k) =>
    match taskDone s t with
    | some r => let (s, j) := afterAsk s a r order; s.setJob i j
    | none =>
      match sendResult s k with
      | none => s
      | some (.ok b) => { s with conn := { s.conn with w := Waiter.step s.conn.w (.sendDone t b) } }
      | some (.error e) => { s with conn := { s.conn with w := Waiter.step s.conn.w (.sendRaise t e) } }
  | some (.report n todo t) =>
    match taskDone s t with
    | none => s
    | some (.error e) => s.setJob i (.done (.error e))
    | some (.ok m) =>
      let (s, j) := reportLoop { s with nodes := s.nodes.set n (advertised m) } todo
      s.setJob i j
  | some (.setup n todo t) =>
    match taskDone s t with
    | none => s
    | some (.error e) => s.setJob i (.done (.error e))
    | some (.ok m) =>
      let (s, j) := setupLoop { s with nodes := s.nodes.set n (advertised m) } todo
      s.setJob i j
  | some (.connect n t) =>
    match taskDone s t with
    | none => s
    | some (.error e) => s.setJob i (.done (.error e))
    | some (.ok m) =>
      match advertised m with
      | none => s.setJob i (.done (.error .attribute))      -- `None.compressed`
      | some ip => ({ s with links := s.links ++ [(⟨n, ip, Conn.init⟩ : Link)] }).setJob i (.opening n s.links.length)
  | some (.opening _ _) => s
  | some (.done _) => s

/-- Operations of a schedule. -/
inductive Op
  | nm (c : Nm)                                              -- a network management call
  | setMode (mode : Int)                                     -- setGatewayMode()
  | setup (order : List Nat)                                 -- the node list part of setupUnsolicitedConnection()
  | connectToNode (n : Nat)
  | opened (i : Nat) (ok : Bool)                             -- the socket of the connection coroutine `i` opens is ready, or could not be opened
  | unsolicited (pkt sender : Bytes) (order : List Nat)      -- a datagram arrives on the unsolicited connection
  | job (i : Nat) (order : List Nat)                         -- coroutine `i` continues
  | conn (o : Conn.Op)                                       -- something happens on the gateway's own connection
  | link (k : Nat) (o : Conn.Op)                             -- something happens on a connection to a node
  deriving DecidableEq, Repr

/-- What callers waiting in a sendAndReceive do after their send is decided by the send (`stepJob`). -/
def external : Conn.Op → Bool
  | .waiter (.call .plain _ _) => true
  | .waiter (.call _ _ _) => false
  | .waiter (.sendDone _ _) => false
  | .waiter (.sendRaise _ _) => false
  | _ => true

/-- One operation. -/
def step (s : State) : Op → State
  | .nm c => let (s, j) := startNm s c; s.addJob j
  | .setMode mode =>
    -- zipgateway.py:302-306; the message has no attributes
    let (s, j) := startAsk s (.mode mode) (.known Reg.ZipGateway.GatewayModeGet.hid []) 0x5F03 3
    s.addJob j
  | .setup order =>
    -- zipgateway.py:330, 149-158
    if s.nodes ≠ [] then let (s, j) := setupLoop s (iter s.nodes.keys order); s.addJob j
    else
      let s := { s with nmSeq := s.nmSeq + 1 }
      match Nm.getNodeList.command s.nmSeq with
      | .error e => s.addJob (.done (.error e))
      | .ok cmd => let (s, j) := startAsk s .setup cmd 0x5202 3; s.addJob j
  | .connectToNode n => let (s, j) := Gateway.connectToNode s n; s.addJob j
  | .opened i ok =>
    match s.jobs[i]? with
    | some (.opening n k) =>
      if ok then
        -- zipgateway.py:104-106, zipconnection.py:48-50
        ({ s with conns := s.conns.set n k,
                  links := s.links.modify k (fun l => { l with conn := Conn.step l.conn .connect }) }).setJob i (.done (.ok (.conn k)))
      else s.setJob i (.done (.error .runtime))              -- an OSError of the socket
    | _ => s
  | .unsolicited pkt sender order => (onUnsolicitedMessage s pkt sender order).1
  | .job i order => stepJob s i order
  | .conn o => if external o then { s with conn := Conn.step s.conn o } else s
  | .link k o =>
    match s.links[k]? with
    | none => s
    | some l =>
      let c := Conn.step l.conn o
      -- the messages spoken by this connection (adapter.py:127)
      (c.heard.drop l.conn.heard.length).foldl (fun s m => onMessageReceived s k m) { s with links := s.links.set k ({ l with conn := c } : Link) }

/-- A schedule. -/
def run (s : State) (ops : List Op) : State := ops.foldl step s

end Model.Gateway

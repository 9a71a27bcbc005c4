import Verif.Props.Vectors
import Verif.Model.Gateway
import Verif.Model.Removal
import Verif.Model.Version
import Verif.Model.NodeInterview
/-!
# The project's own tests with state, on the model

As `Props/Vectors.lean`, for tests that go through several steps. What a test's mocks answer is an operation of the schedule here.
-/
namespace Props.Vectors
open Spec Model

/-! ## tests/test_node.py -/

/-- Fixture `mocknode`: Basic and Version, then SwitchBinary after the security mark, and again after the control mark. -/
example : Node.classes [0x20, 0x86, 0xF1, 0x00, 0x25, 0xEF, 0x25] = .ok ⟨[(0x20, false), (0x86, false), (0x25, true)], [(0x25, true)]⟩ := by decide +kernel

/-- Fixture `node`: supports ZwavePlusInfo and AssociationGrpInfo, its sends return True. The handler of AssociationGrpInfo returns True. -/
def nodeEnv (on : Option Bool) : Node.Env Unit :=
  ⟨fun c => c == 0x5E || c == 0x59, fun c hid => if c = 0x59 ∧ hid = 0x5902 then some fun _ u => (u, .ok (.bool true)) else none, fun _ _ _ => [],
   fun _ => match on with | none => [] | some b => [.sync fun u => (u, .ok (.bool b))], fun _ u => (u, .ok true)⟩
/-- Nothing has happened to the node; calls wait for the message types `hids`. -/
def nodeWorld (hids : List Nat) : Node.World Unit := ⟨hids.foldl (fun s h => (Waiter.addWaitingSession s h).1) Waiter.init, (), []⟩

/-- test_handleMessage -/
example : let get : Msg := .known Reg.Basic.Get.hid []
    let name : Msg := .known Reg.AssociationGrpInfo.GroupNameReport.hid []
    let first := Node.handleMessage (nodeEnv none) (nodeWorld [Reg.Basic.Get.hid]) get
    first.2 = .ok true ∧ (Node.handleMessage (nodeEnv none) first.1 get).2 = .ok false ∧ (Node.handleMessage (nodeEnv none) first.1 name).2 = .ok true := by
  decide +kernel

/-- test_handleMessage_onMessage -/
example : let m : Msg := .known Reg.Basic.Report.hid [("value", .num (.uint 1) 0)]
    (Node.handleMessage (nodeEnv (some true)) (nodeWorld []) m).2 = .ok true ∧ (Node.handleMessage (nodeEnv (some false)) (nodeWorld []) m).2 = .ok false := by
  decide +kernel

/-- The supervision message of the two following tests. -/
def supervision : Msg :=
  .wrap Reg.Supervision.Get.hid [("statusUpdates", .num .flag 0), ("sessionID", .num (.ubits 6) 42)] (.known Reg.Basic.Report.hid [("value", .num (.uint 1) 1)])
/-- What is sent when `supervision` is handled. -/
def supervisionSent (hids : List Nat) : List (Int × Int × Int) :=
  (Node.handleMessage (nodeEnv none) (nodeWorld hids) supervision).1.trace.filterMap fun e =>
    match e with
    | .sent m _ => some ((m.num? "sessionID").getD (-1), (m.num? "status").getD (-1), (m.num? "duration").getD (-1))
    | _ => none

/-- test_supervision_handled, test_supervision_not_handled -/
example : (Node.handleMessage (nodeEnv none) (nodeWorld [Reg.Basic.Report.hid]) supervision).2 = .ok true ∧ supervisionSent [Reg.Basic.Report.hid] = [(42, 0xFF, 0)] ∧
    (Node.handleMessage (nodeEnv none) (nodeWorld []) supervision).2 = .ok false ∧ supervisionSent [] = [(42, 0x00, 0)] := by
  decide +kernel

/-- test_storageLock -/
example : Node.storageRun .clean [.update] = [true] ∧ Node.storageRun .clean [.enter, .update, .update, .leave] = [false, false, false, true] := by decide +kernel

/-- test_sendAndReceive, test_sendAndReceive_no_wakeup -/
example : let report : Msg := .known Reg.Basic.Report.hid []
    (Waiter.run Waiter.init [.call .node report.hid 3, .sendDone 0 true, .message report, .resume 0]).tasks.map (·.pc) = [.done (.ok report)] ∧
    (Waiter.run Waiter.init [.call .node report.hid 3, .sendDone 0 false]).tasks.map (·.pc) = [.done (.error .timeout)] := by
  decide +kernel

/-- test_nodeId -/
example : App.key 2 0 = "2:0".toList := by decide +kernel

/-! ## tests/test_adaper.py -/

/-- test_sendAndReceive, test_waitForMessage, test_waitForMessage_timeout -/
example : let report : Msg := .known Reg.Basic.Report.hid []
    (Waiter.run Waiter.init [.call .adapter report.hid 3, .sendDone 0 true, .message report, .resume 0]).tasks.map (·.pc) = [.done (.ok report)] ∧
    (Waiter.run Waiter.init [.call .plain report.hid 3, .message report, .resume 0]).tasks.map (·.pc) = [.done (.ok report)] ∧
    (Waiter.run Waiter.init [.call .plain report.hid 0, .timer 0, .resume 0, .cancelDone 0]).tasks.map (·.pc) = [.done (.error .timeout)] := by
  decide +kernel

/-! ## tests/test_zipgateway.py -/

/-- The results of the coroutines of a gateway. -/
def results (s : Gateway.State) : List (Option (Py Gateway.Ret)) := s.jobs.map fun j => match j with | .done r => some r | _ => none

/-- The gateway acknowledges packet `seq` and then sends `cmd` in a packet. -/
def acked (seq : UInt8) : Gateway.Op := .conn (.packet [0x23, 0x02, 0x40, 0x10, seq, 0x00, 0x00])
/-- The gateway sends `cmd` in a packet. -/
def cmd (b : Bytes) : Gateway.Op := .conn (.packet ([0x23, 0x02, 0x00, 0x50, 0x63, 0x00, 0x00] ++ b))

/-- test_getFailedNodeList -/
example : results (Gateway.run Gateway.init [.conn .connect, .nm .getFailedNodeList, acked 1, .conn (.resume 0), .job 0 [],
      cmd ([0x52, 0x0C, 0x02, 0x21] ++ List.replicate 28 0), .conn (.waiter (.resume 0)), .job 0 []]) =
    [some (.ok (.val (some (.nodeSet [1, 6]))))] := by
  decide +kernel

/-- test_getNodeList -/
example : let s := Gateway.run Gateway.init [.conn .connect, .nm .getNodeList, acked 1, .conn (.resume 0), .job 0 [],
      cmd ([0x52, 0x02, 0x02, 0x00, 0x01, 0x21] ++ List.replicate 28 0), .conn (.waiter (.resume 0)), .job 0 []]
    Gateway.init.nodeId = some 0 ∧ results s = [some (.ok (.nodes [1, 6]))] ∧ s.nodes = [(1, none), (6, none)] ∧ s.nodeId = some 1 := by
  decide +kernel

/-- test_getNodeList_cached -/
example : results (Gateway.run { Gateway.init with nodes := [(1, none), (2, none)] } [.nm .getNodeList]) = [some (.ok (.nodes [1, 2]))] := by decide +kernel

/-- test_getNodeList_timeout, test_getFailedNodeList_timeout, test_getMultiChannelEndPoints_timeout, test_removeFailedNodeTimeout -/
example : ∀ c ∈ [Gateway.Nm.getNodeList, .getFailedNodeList, .getMultiChannelEndPoints 1, .removeFailedNode 42],
    results (Gateway.run Gateway.init [.conn .connect, .nm c, acked 1, .conn (.resume 0), .job 0 [],
      .conn .tick, .conn .tick, .conn .tick, .conn .tick, .conn .tick, .conn .tick, .conn .tick,
      .conn .tick, .conn .tick, .conn .tick, .conn (.waiter (.timer 0)), .conn (.waiter (.resume 0)), .conn (.waiter (.cancelDone 0)), .job 0 []]) =
    [some (.ok (match c with | .getNodeList => .nodes [] | .getFailedNodeList => .nodes [] | .removeFailedNode _ => .num 2 | _ => .num 0))] := by
  decide +kernel

/-- test_getMultiChannelEndPoints -/
example : results (Gateway.run Gateway.init [.conn .connect, .nm (.getMultiChannelEndPoints 1), acked 1, .conn (.resume 0), .job 0 [],
      cmd [0x52, 0x06, 0x01, 0x01, 0x00, 0x02, 0x00], .conn (.waiter (.resume 0)), .job 0 []]) = [some (.ok (.num 2))] := by
  decide +kernel

/-- test_getNodeInfo -/
example : let pkt : Bytes := [0x52, 0x04, 0x03, 0x1b, 0x9c, 0x9c, 0x00, 0x04, 0x10, 0x01, 0x5e, 0x25, 0x27, 0x85, 0x5c, 0x70, 0x72, 0x75, 0x86, 0x5a, 0x59, 0x73, 0x7a, 0x68, 0x23]
    (decode pkt).map (fun m => [some (.ok (Gateway.Ret.msg m))]) =
      .ok (results (Gateway.run Gateway.init [.conn .connect, .nm (.getNodeInfo 1), acked 1, .conn (.resume 0), .job 0 [], cmd pkt, .conn (.waiter (.resume 0)), .job 0 []])) := by
  decide +kernel

/-- test_handleNodeListReport, with the advertisement for the new node in place of the mock. -/
example : let ip : Bytes := List.replicate 15 0 ++ [1]
    let s := Gateway.run { Gateway.init with nodes := [(1, some ip), (2, some ip)] }
      [.conn .connect, .unsolicited ([0x23, 0x02, 0x40, 0x10, 0x00, 0x00, 0x00, 0x52, 0x02, 0x02, 0x00, 0x01, 0x21] ++ List.replicate 28 0) ip [1, 6],
       .conn (.packet ([0x58, 0x01, 0x00, 0x06] ++ ip ++ [0xea, 0xec, 0xfa, 0xf9])), .conn (.waiter (.resume 0)), .job 0 [1, 6]]
    s.nodes = [(1, some ip), (6, some ip)] ∧ s.listUpdated = 1 := by
  decide +kernel

/-- test_onMessageReceived, test_onMessageReceived_noNode: connections to nodes 2 (`0`) and another one. -/
example : let get : Msg := .known Reg.Basic.Get.hid []
    let s : Gateway.State := { Gateway.init with conns := [(2, 0)], links := [⟨2, [], Conn.init⟩, ⟨3, [], Conn.init⟩] }
    (Gateway.onMessageReceived s 0 (.wrap Reg.Zip.ZipPacket.hid [("sourceEP", .num (.ubits 7) 0)] get)).told.map (fun t => (t.node, t.sourceEP, t.message)) = [(2, some 0, some get)] ∧
    (Gateway.onMessageReceived s 1 get).told = [] := by
  decide +kernel

/-- test_onUnsolicitedMessage, test_onUnsolicitedMessage_unknownNode -/
example : let ip : Bytes := [0, 0, 0, 0, 0, 0, 0, 0, 0, 0, 0xff, 0xff, 0xc0, 0xa8, 0x00, 0xee]
    let s : Gateway.State := { Gateway.init with nodes := [(7, some ip)] }
    let a := Gateway.onUnsolicitedMessage s [0x23, 0x02, 0x80, 0xc0, 0xf9, 0x00, 0x00, 0x05, 0x84, 0x02, 0x00, 0x00, 0x25, 0x03, 0x00] ip []
    let b := Gateway.onUnsolicitedMessage s [0x23, 0x02, 0x00, 0xc0, 0xf9, 0x00, 0x00, 0x05, 0x84, 0x02, 0x00, 0x00, 0x25, 0x03, 0x00] (List.replicate 16 0) []
    a.2 = .ok true ∧ a.1.told.map (fun t => (t.node, t.sourceEP, t.message)) = [(7, some 0, some (.known Reg.SwitchBinary.Report.hid [("value", .num (.uint 1) 0)]))] ∧
    a.1.acks = [([0x23, 0x02, 0x40, 0x00, 0xf9, 0x00, 0x00], ip)] ∧ b.2 = .ok false ∧ b.1.told = [] := by
  decide +kernel

/-- test_removeFailedNode (status DONE), and what test_remove of test_node.py makes of the three statuses. -/
example : results (Gateway.run Gateway.init [.conn .connect, .nm (.removeFailedNode 42), acked 1, .conn (.resume 0), .job 0 [],
      cmd [0x34, 0x08, 0x01, 0x01, 0x2a], .conn (.waiter (.resume 0)), .job 0 []]) = [some (.ok (.val (some (.num (.uint 1) 1))))] := by
  decide +kernel

/-- test_sendToNode: the packet on an existing connection to node 6, and its acknowledgement. -/
example : let l := Conn.run Conn.init [.connect, .send (.known Reg.Basic.Get.hid []) 0 0 3, .packet [0x23, 0x02, 0x40, 0x10, 0x01, 0x00, 0x00], .resume 0]
    l.sends.map (·.pc) = [.done (.ok true)] := by
  decide +kernel

/-- test_setupUnsolicitedConnection -/
example : let ip : Bytes := [0x20, 0x01, 0x0d, 0xb8] ++ List.replicate 11 0 ++ [1]
    let s := Gateway.run { Gateway.init with nodes := [(1, none)] }
      [.conn .connect, .setup [1], .conn (.packet ([0x58, 0x01, 0x00, 0x01] ++ ip ++ [0x12, 0x34, 0x56, 0x78])), .conn (.waiter (.resume 0)), .job 0 []]
    s.nodes = [(1, some ip)] := by
  decide +kernel

/-! ## tests/test_node.py, removal -/

/-- test_remove: REMOVE_FAIL, NOT_FOUND and DONE -/
example : nodeRemove (.ok (.num 2)) = .ok false ∧ nodeRemove (.ok (.num 0)) = .ok false ∧ nodeRemove (.ok (.num 1)) = .ok true := by decide +kernel

/-! ## tests/test_application.py -/

/-- What `getNodeInfo` and `getMultiChannelCapability` of the fixture give. -/
def multi : App.Info := ⟨[0x60], 0, 0, 0, false⟩
/-- An end point without command classes. -/
def plain : App.Info := ⟨[], 0, 0, 0, false⟩
/-- Fixture `app`: the application of node 1 knows node 3, which supports Basic. -/
def app : App.State := { App.fresh 1 with nodes := [("3:0".toList, ⟨0, 3, 0, ⟨[0x20], 0, 0, 0, false⟩⟩)], objs := 1 }
/-- What the listeners are told, without the objects' contents. -/
def toldOf (s : App.State) : List (String × List (List Char)) :=
  s.trace.filterMap fun e =>
    match e with
    | .removed _ k => some ("nodeRemoved", [k])
    | .removedAll _ ks => some ("nodesRemoved", ks)
    | .addedAll _ nds => some ("nodesAdded", nds.map (·.id))
    | .added _ nd => some ("nodeAdded", [nd.id])
    | _ => none
/-- The answers in test_nodeListUpdated to the first call. -/
def firstUpdate : List App.Op :=
  [.start .update, .answer 0 (.list (.ok [1, 2, 3])), .answer 0 (.info (.ok multi)), .answer 0 (.eps (.ok 1)), .answer 0 (.cap (.ok plain)),
   .answer 0 (.asked (.ok ())), .answer 0 (.asked (.ok ())), .answer 0 (.asked (.ok ()))]

/-- test_nodeListUpdated: the first call -/
example : let s := App.run app firstUpdate
    s.nodes.map Prod.fst = ["3:0".toList, "2:0".toList, "2:1".toList] ∧ s.calls = [.done (.ok ())] ∧
    toldOf s = [("nodesAdded", ["2:0".toList, "2:1".toList]), ("nodeAdded", ["2:0".toList]), ("nodeAdded", ["2:1".toList])] := by
  decide +kernel

/-- test_nodeListUpdated: the second call -/
example : let s := App.run { App.run app firstUpdate with trace := [] } [.start .update, .answer 1 (.list (.ok [1, 2])), .answer 1 (.asked (.ok ())), .answer 1 (.asked (.ok ()))]
    s.nodes.map Prod.fst = ["2:0".toList, "2:1".toList] ∧ s.calls = [.done (.ok ()), .done (.ok ())] ∧
    toldOf s = [("nodeRemoved", ["3:0".toList]), ("nodesRemoved", ["3:0".toList])] := by
  decide +kernel

/-- test_startup -/
example : let ok : App.Op := .answer 0 (.asked (.ok ()))
    let s := App.run app [.start .startup, .answer 0 (.list (.ok [1, 2, 3])), .answer 0 (.info (.ok multi)), .answer 0 (.eps (.ok 1)), .answer 0 (.cap (.ok plain)),
      .answer 0 (.info (.ok multi)), .answer 0 (.eps (.ok 1)), .answer 0 (.cap (.ok plain)), .answer 0 (.failed (.ok ())), ok, ok, ok, ok, ok]
    s.nodes.map Prod.fst = ["3:0".toList, "2:0".toList, "2:1".toList, "3:1".toList] ∧ s.calls = [.done (.ok ())] ∧
    ((toldOf s).filter (fun e => e.1 = "nodeAdded")).length = 4 := by
  decide +kernel

/-- test_messageReceived: an unknown node, a node that handles the message and one that does not, the controller itself. -/
example : (App.messageReceived app.nodes 1 (fun _ => .ok (.bool true)) (.ok ()) 4 0).2 = .ok false ∧
    (App.messageReceived app.nodes 1 (fun _ => .ok (.bool true)) (.ok ()) 3 0).2 = .ok true ∧
    (App.messageReceived app.nodes 1 (fun _ => .ok (.bool false)) (.ok ()) 3 0).2 = .ok false ∧
    (App.messageReceived app.nodes 1 (fun _ => .ok (.bool true)) (.ok ()) 1 0).2 = .ok true := by
  decide +kernel

/-- test_onMessageReceived; a `MagicMock` returned by the listener is a value that is not `True`. -/
example : let zip (c : Msg) : Msg := .wrap Reg.Zip.ZipPacket.hid [] c
    let no : App.Note → Py (List Listen.Ret) := fun _ => .ok [.other true]
    let add : Msg := .known Reg.NetworkManagementInclusion.NodeAddStatus.hid []
    let failed : Msg := .known Reg.NetworkManagementInclusion.NodeRemoveStatus.hid [("status", .num (.uint 1) 7)]
    let done : Msg := .known Reg.NetworkManagementInclusion.NodeRemoveStatus.hid [("status", .num (.uint 1) 6), ("nodeID", .num (.uint 1) 0)]
    let get : Msg := .known Reg.Basic.Get.hid []
    App.onMessageReceived no (zip add) = ([.addNodeStatus add], .ok true) ∧
    App.onMessageReceived no (zip failed) = ([.removeNodeStatus failed], .ok true) ∧
    App.onMessageReceived no (zip done) = ([.removeNodeStatus done, .nodeRemoved 0, .nodesRemoved [0]], .ok true) ∧
    (App.onMessageReceived no (zip get)).2 = .ok false ∧
    (App.onMessageReceived (fun _ => .ok [.bool true]) (zip get)).2 = .ok true ∧
    App.onMessageReceived no get = ([], .ok false) ∧ App.onMessageReceived no (.known Reg.Zip.ZipPacket.hid []) = ([], .ok false) := by
  decide +kernel

/-! ## tests/test_mailbox.py -/

/-- A `Mailbox.Queue` message. -/
def queueMsg (operation : Int) (handle : Int) (entry : Option Bytes) : Msg :=
  .known Reg.Mailbox.Queue.hid ([("last", .num .flag 0), ("operation", .num (.ubits 3) operation), ("queueHandle", .num (.uint 1) handle)] ++
    match entry with | none => [] | some b => [("mailboxEntry", .bytes b)])
/-- What was handed to `sendToNode`. -/
def boxSent (s : Mailbox.State) : List Mailbox.Out := s.log.filterMap fun e => match e with | .sent _ o => some o | _ => none
/-- What the handlers returned. -/
def boxEnded (s : Mailbox.State) : List (Py (Option Bool)) := s.log.filterMap fun e => match e with | .ended _ _ r => some r | _ => none
/-- `b"hello"` -/
def hello : Bytes := [0x68, 0x65, 0x6c, 0x6c, 0x6f]

/-- test_messageReceived_QueuePush, test_pushQueue: the second push of the same message is discarded. -/
example : let s := Mailbox.run Mailbox.fresh [.received 1 (queueMsg 0 42 (some hello)), .sendEnds 0 (.ok true)]
    let t := Mailbox.run s [.received 1 (queueMsg 0 42 (some hello))]
    boxSent s = [⟨1, false, .waiting, 42, some hello⟩] ∧ boxEnded s = [.ok (some true)] ∧ (s.items (some 42)).length = 1 ∧
    boxEnded t = [.ok (some true), .ok (some false)] ∧ (t.items (some 42)).length = 1 := by
  decide +kernel

/-- test_popQueue, test_popQueue_empty: `__popQueue__` is reached by an ACK. -/
example : let s := Mailbox.run Mailbox.fresh [.received 1 (queueMsg 0 3 (some hello)), .sendEnds 0 (.ok true), .received 1 (queueMsg 4 3 none), .sendEnds 1 (.ok true)]
    let t := Mailbox.run Mailbox.fresh [.received 1 (queueMsg 4 3 none), .sendEnds 0 (.ok true)]
    boxSent s = [⟨1, false, .waiting, 3, some hello⟩, ⟨1, true, .pop, 3, some hello⟩] ∧ boxEnded s = [.ok (some true), .ok (some true)] ∧
    boxSent t = [⟨1, true, .pop, 3, none⟩] ∧ boxEnded t = [.ok (some true)] := by
  decide +kernel

/-- test_messageReceived_QueueAck, test_messageReceived_WakeupNotification -/
example : let ack := Mailbox.run Mailbox.fresh [.received 1 (queueMsg 4 42 none), .sendEnds 0 (.ok true)]
    let wake := Mailbox.run Mailbox.fresh [.received 1 (.known Reg.Mailbox.WakeupNotification.hid [("queueHandle", .num (.uint 1) 42)]), .sendEnds 0 (.ok true)]
    boxEnded ack = [.ok (some true)] ∧ boxEnded wake = [.ok (some true)] ∧ wake.lastQueueId = some 42 := by
  decide +kernel

/-- test_QueueItem_runner: nine heartbeats and a ping. -/
example : let s := Mailbox.run Mailbox.fresh [.received 1 (queueMsg 0 2 (some hello)), .sendEnds 0 (.ok true)]
    let beats := (List.range 10).flatMap fun _ => [Mailbox.Op.tick 0, .beatEnds 0 (.ok true)]
    (boxSent (Mailbox.run s beats)).drop 1 = List.replicate 9 ⟨1, false, .waiting, 2, some hello⟩ ++ [⟨1, false, .ping, 2, some hello⟩] := by
  decide +kernel

/-! ## tests/test_commandclass.py and tests/test_cc_*.py -/

/-- test_interview, test_interview_timeout, test_interview_unknownVersion, test_requestVersion, test_requestVersion_timeout, test_requestVersion_unknownCommandClass -/
example : let a := Interview.run (Interview.fresh 0x86) [.interview, .versionAnswer 0 (.ok 4), .bodyEnds 0 (.ok .none)]
    let b := Interview.run (Interview.fresh 0x86) [.interview, .versionAnswer 0 (.ok 4), .bodyEnds 0 (.error .timeout)]
    let c := Interview.run (Interview.fresh 0) [.interview]
    let d := Interview.run (Interview.fresh 0x86) [.requestVersion, .versionAnswer 0 (.ok 4)]
    let e := Interview.run (Interview.fresh 0x86) [.requestVersion, .versionAnswer 0 (.error .timeout)]
    let f := Interview.run (Interview.fresh 0) [.requestVersion]
    (a.version, a.interviewed) = (4, true) ∧ b.interviewed = false ∧ b.calls.map (·.pc) = [.done .timedOut (.ok (.bool false))] ∧ (c.version, c.interviewed) = (0, false) ∧
    d.version = 4 ∧ e.version = 0 ∧ e.calls.map (·.pc) = [.done (.version 0) (.ok (Interview.verRet 0))] ∧ f.version = 0 := by
  decide +kernel

/-- test_cc_version.py and test_cc_manufacturerspecific.py: test_interview -/
example : Classes.Copy.interview Classes.Copy.versionNames [("zwaveLibraryType", 6)] (.ok (.known Reg.Version.VersionReport.hid
      [("zwaveLibraryType", .num (.uint 1) 6), ("zwaveProtocolVersion", .num (.uint 1) 1), ("zwaveProtocolSubVersion", .num (.uint 1) 2), ("applicationVersion", .num (.uint 1) 1),
       ("applicationSubVersion", .num (.uint 1) 0)])) =
      ([("zwaveLibraryType", 6), ("zwaveProtocolVersion", 1), ("zwaveProtocolSubVersion", 2), ("applicationVersion", 1), ("applicationSubVersion", 0)], .ok ()) ∧
    Classes.Copy.interview Classes.Copy.manufacturerNames [] (.ok (.known Reg.ManufacturerSpecific.Report.hid
      [("manufacturerID", .num (.uint 2) 1), ("productTypeID", .num (.uint 2) 2), ("productID", .num (.uint 2) 3)])) =
      ([("manufacturerID", 1), ("productTypeID", 2), ("productID", 3)], .ok ()) := by
  decide +kernel

/-- test_cc_configuration.py: test_Configuration_get_cached, test_Configuration_get_force_non_cached, test_Configuration_get_non_cached, test_Configuration_report, test_Configuration_set -/
example : let value : Msg := .known Reg.Configuration.Report.hid [("value", .num (.sint 1) 42)]
    let known : Classes.Config.State := ⟨[(1, ⟨42, 0⟩)], [], []⟩
    let a := Classes.Config.run known [.get 1 true]
    let b := Classes.Config.run known [.get 1 false, .answer 0 (.ok value)]
    let c := Classes.Config.run Classes.Config.fresh [.get 1 true, .answer 0 (.ok value)]
    let d := Classes.Config.run Classes.Config.fresh
      [.report (.known Reg.Configuration.Report.hid [("parameterNumber", .num (.uint 1) 2), ("size", .num (.ubits 3) 2), ("value", .num (.sint 2) 1234)])]
    a.gets = [.done 1 (.ok (some 42))] ∧ a.sent = [] ∧ b.gets = [.done 1 (.ok (some 42))] ∧ b.sent = [.get 1] ∧ c.gets = [.done 1 (.ok (some 42))] ∧ c.sent = [.get 1] ∧
    d.params = [(2, ⟨1234, 2⟩)] ∧ (Classes.Config.run Classes.Config.fresh [.set 1 1 42]).sent = [.set 1 1 42] := by
  decide +kernel

/-- test_cc_sensormultilevel.py: test_interview, test_interview_v4, test_report_v4, test_report -/
example : let m : Msg := .known Reg.SensorMultilevel.Report.hid [("sensorType", .num (.uint 1) 1), ("sensorValue", .float 232 1 1 0)]
    let first : Py Msg := .ok (.known Reg.SensorMultilevel.SupportedSensorReport.hid [("bitMask", .sensors [1])])
    let scale : Nat → Py Msg := fun _ => .ok (.known Reg.SensorMultilevel.SupportedScaleReport.hid [("sensorType", .num (.uint 1) 1), ("scaleBitMask", .num (.ubits 4) 3)])
    (Classes.Sensor.interview ⟨5, []⟩ first scale).1.types = [(1, 3)] ∧ (Classes.Sensor.interview ⟨4, []⟩ first scale).1.types = [] ∧
    Classes.Sensor.report ⟨4, []⟩ m = .ok (.bool false) ∧ Classes.Sensor.report ⟨5, [(1, 3)]⟩ m = .ok .none ∧
    Classes.Sensor.report ⟨5, [(2, 3)]⟩ m = .ok (.bool true) ∧ Classes.Sensor.report ⟨5, [(1, 4)]⟩ m = .ok (.bool true) := by
  decide +kernel

/-- A report about a group. -/
def groupReport (g : Int) (nodes : List (Nat × Option Nat)) : Py Msg :=
  .ok (.known Reg.Association.Report.hid [("groupingIdentifier", .num (.uint 1) g), ("maxNodesSupported", .num (.uint 1) 1), ("reportsToFollow", .num (.uint 1) 0), ("nodes", .nodes nodes)])
/-- A report of the number of groups. -/
def oneGroup : Py Msg := .ok (.known Reg.Association.GroupingsReport.hid [("supportedGroupings", .num (.uint 1) 1)])

/-- test_cc_association.py: test_interview, test_interview_multichannel, test_interview_timeout, test_interview_wrong_response; the nodes do not support Z-Wave Plus. -/
example : let run (supp : Nat → Bool) (ans : Py Msg) := (Classes.Assoc.interview supp [] oneGroup (fun _ => ans) (.ok true) ans)
    (run (fun c => c == 0x85) (groupReport 1 [(1, none)])).1 = [(1, ⟨1, [(1, none)]⟩)] ∧
    (run (fun c => c == 0x85 || c == 0x8E || c == 0x60) (groupReport 1 [(1, none), (2, some 0)])).1 = [(1, ⟨1, [(1, none), (2, some 0)]⟩)] ∧
    (run (fun c => c == 0x85) (.error .timeout)).1 = [(1, ⟨0, []⟩)] ∧ (run (fun c => c == 0x85) (groupReport 2 [])).1 = [(1, ⟨0, []⟩)] := by
  decide +kernel

/-- test_cc_association.py: test_setupLifeLine, test_setupLifeLine_multichannel, test_setupLifeLine_nonZWavePlus -/
example : let supp : Nat → Bool := fun c => c == 0x85 || c == 0x5E
    let multi : Nat → Bool := fun c => c == 0x85 || c == 0x5E || c == 0x8E || c == 0x60
    let answer := groupReport 1 [(1, none)]
    let first := Classes.Assoc.setupLifeLine supp (Classes.Assoc.setNumGroups [] 1) 1 (.ok true) answer
    (Classes.Assoc.setupLifeLine supp [] 1 (.ok true) answer).2.1 = [] ∧
    first.2.1 = [.set (.known Reg.Association.Set.hid [("groupingIdentifier", .num (.uint 1) 1), ("nodes", .nodes [(1, none)])]), .ask false 1] ∧
    (Classes.Assoc.setupLifeLine supp first.1 1 (.ok true) answer).2.1 = [] ∧
    (Classes.Assoc.setupLifeLine multi (Classes.Assoc.setNumGroups [] 1) 1 (.ok true) answer).2.1 =
      [.set (.known Reg.MultiChannelAssociation.MultiChannelSet.hid [("groupingIdentifier", .num (.uint 1) 1), ("nodes", .nodes [(1, some 0)])]), .ask true 1] ∧
    (Classes.Assoc.setupLifeLine (fun c => c == 0x85) (Classes.Assoc.setNumGroups [] 1) 1 (.ok true) answer).2.1 = [] := by
  decide +kernel

/-- test_cc_associationgrpinfo.py: test_interview -/
example : let name : List Nat := [0x4c, 0x69, 0x66, 0x65, 0x6c, 0x69, 0x6e, 0x65]
    let s := Classes.Agi.run Classes.Agi.fresh [.info [(1, 0)], .name 1 name, .sent 0 (.ok true), .commands 1 [(1, 2), (3, 4)], .sent 0 (.ok true)]
    s.groups = [(1, ⟨some name, 0, some [(1, 2), (3, 4)]⟩)] ∧ s.handlers = [none] := by
  decide +kernel

/-! ## tests/test_persistantstorage.py -/

/-- test_nodeAdded: `supported:\n  134:\n    version: 2` -/
example : ((Storage.restore [("134".toList, .map [("version".toList, .str "2".toList)])] [(0x20, .fresh), (0x86, .fresh)]).1.map fun p => (p.1, p.2.version)) = [(0x20, 0), (0x86, 2)] := by
  decide +kernel

end Props.Vectors

import Verif.Lemmas.Boot
/-!
# The application on the gateway: startup and node list updates from the datagrams on
-/
namespace Props.Boot
open Spec Model Model.Boot
open Model.Gateway (UnsolicitedNodes)
open Model.App (Info Nd Ev Pc)
open Props.Gateway (plain mask addr nodeListPacket advertisement)
open Props.GatewayCalls (answer)

/-! ## Examples: datagrams -/

/-- The acknowledgement of the packet with the number `k`. -/
def ackOf (k : UInt8) : Bytes := [0x23, 0x02, 0x40, 0x10, k, 0x00, 0x00]

/-- The query sent by send `k` and awaited by coroutine `j` is answered by a report; call `i` goes on. -/
def replied (k : UInt8) (j i : Nat) (cmd : Bytes) : List Op :=
  [.gw (.conn (.packet (ackOf (k + 1)))), .gw (.conn (.resume k.toNat)), .gw (.job j []), .gw (.conn (.packet (answer cmd))), .gw (.conn (.waiter (.resume k.toNat))),
    .gw (.job j []), .resume i []]

/-- It is not answered in time. -/
def silent (k : UInt8) (j i : Nat) : List Op :=
  [.gw (.conn (.packet (ackOf (k + 1)))), .gw (.conn (.resume k.toNat)), .gw (.job j []), .gw (.conn .tick), .gw (.conn .tick), .gw (.conn .tick),
    .gw (.conn (.waiter (.timer k.toNat))), .gw (.conn (.waiter (.resume k.toNat))), .gw (.conn (.waiter (.cancelDone k.toNat))), .gw (.job j []), .resume i []]

/-- The controller 1 reports the nodes of a mask. -/
def listed (m : UInt8) : Bytes := 0x52 :: 0x02 :: 1 :: 0 :: 1 :: mask m

/-- A switch. -/
def switchInfo (seq : UInt8) : Bytes := [0x52, 0x04, seq, 0, 0x80, 0, 0, 4, 16, 1, 0x25]

/-- A switch with end points. -/
def multiInfo (seq : UInt8) : Bytes := [0x52, 0x04, seq, 0, 0x80, 0, 0, 4, 16, 1, 0x60, 0x25]

def endPoints : Bytes := [0x52, 0x06, 4, 3, 0, 1, 0]
def capability : Bytes := [0x52, 0x08, 5, 3, 1, 1, 17, 2, 0x26]
def noneFailed : Bytes := 0x52 :: 0x0C :: 6 :: mask 0

/-- Startup with the controller and two nodes, one of them with an end point. -/
def booted : List Op :=
  [.gw (.conn .connect), .startup] ++ replied 0 0 0 (listed 7) ++ replied 1 1 0 (switchInfo 2) ++ replied 2 2 0 (multiInfo 3) ++ replied 3 3 0 endPoints ++ replied 4 4 0 capability ++
    replied 5 5 0 noneFailed ++ [.asked 0 (.ok ()), .asked 0 (.ok ()), .asked 0 (.ok ()), .asked 0 (.ok ())]

/-! ## C132 -/

/-- A node info report says `x`. -/
def Says (m : Msg) (x : Info) : Prop :=
  m.hid = 0x5204 ∧ ∃ b, m.attr "commandClass" = some (.bytes b) ∧ x = ⟨b.map UInt8.toNat, ((m.num? "basicDeviceClass").getD 0).toNat, ((m.num? "genericDeviceClass").getD 0).toNat,
    ((m.num? "specificDeviceClass").getD 0).toNat, m.flag "listening"⟩

/-- A capability report of an end point of a node with the information `p` says `x`. -/
def SaysEnd (p : Info) (m : Msg) (x : Info) : Prop :=
  m.hid = 0x5208 ∧ ∃ b, m.attr "commandClass" = some (.bytes b) ∧ x = ⟨b.map UInt8.toNat, p.basic, ((m.num? "genericDeviceClass").getD 0).toNat,
    ((m.num? "specificDeviceClass").getD 0).toNat, p.listening⟩

/-- The gateway was asked for the information of node `n`, with the sequence number `q`. -/
def AskedFor (s : State) (q n : UInt8) : Prop := ∃ h, h ++ [0x52, 0x03, q, 15, n] ∈ s.gw.conn.out

/-- The full property: what the table says of a node came in a report that answers a question for that node. -/
def C132_statement : Prop :=
  ∀ (ops : List Op) (k : Str) (nd : Nd), (k, nd) ∈ (run init ops).app.nodes → nd.ep = 0 →
    ∃ m q n, Received ops m ∧ Says m nd.info ∧ m.num? "seqNo" = some (q.toNat : Int) ∧ nd.root = n.toNat ∧ AskedFor (run init ops) q n

/-- Startup asks for node 2 while an update asks for node 3; the report for node 2 answers both. -/
def mixed : List Op :=
  [.gw (.conn .connect), .startup] ++ replied 0 0 0 (listed 6) ++ [.gw (.unsolicited (nodeListPacket plain 1 0 1 (mask 6)) (addr 9) [])] ++
    (Props.Gateway.answered 1 2 2 (addr 2) ++ Props.Gateway.answered 2 2 3 (addr 3)).map .gw ++
    [.update, .resume 1 [3, 2], .gw (.conn (.packet (ackOf 2))), .gw (.conn (.resume 1)), .gw (.job 1 []), .gw (.conn (.packet (ackOf 3))), .gw (.conn (.resume 2)), .gw (.job 4 []),
      .gw (.conn (.packet (answer (switchInfo 2)))), .gw (.conn (.waiter (.resume 2))), .gw (.job 4 []), .resume 1 []]

/-- The datagrams of a history. -/
def packets (ops : List Op) : List Bytes := ops.filterMap fun
  | .gw (.conn (.packet b)) => some b
  | _ => none

theorem mem_packets {ops : List Op} {b : Bytes} : .gw (.conn (.packet b)) ∈ ops ↔ b ∈ packets ops := by
  simp only [packets, List.mem_filterMap]
  constructor
  · intro h; exact ⟨_, h, rfl⟩
  · rintro ⟨a, h, e⟩
    split at e
    · cases e; exact h
    · cases e

/-- The messages of the datagrams, in a form that can be computed. -/
theorem received_all {ops : List Op} {f : Msg → Bool} (h : (packets ops).all (fun b => ((decode b).toOption.bind fun p => if p.hid = 0x2302 then p.command else some p).all f) = true)
    {m : Msg} (hm : Received ops m) : f m = true := by
  obtain ⟨b, hb, p, hp, hc⟩ := hm
  have := List.all_eq_true.1 h b (mem_packets.1 hb)
  rw [hp] at this
  simp only [Except.toOption, Option.bind_some, hc, Option.all_some] at this
  exact this

theorem getLast5 {h : Bytes} {a b c d e : UInt8} : (h ++ [a, b, c, d, e]).reverse.take 5 = [e, d, c, b, a] := by simp

/-- **C132 is violated**: node 3 gets the information of node 2. -/
theorem C132_violated : ¬ C132_statement := by
  intro h
  obtain ⟨m, q, n, hr, hs, hq, hn, x, hx⟩ := h mixed (App.key 3 0) ⟨0, 3, 0, [0x25], 4, 16, 1, true⟩ (by decide +kernel) rfl
  have h1 := received_all (ops := mixed) (f := fun m => decide (m.hid = 0x5204 → m.num? "seqNo" = some 2)) (by decide +kernel) hr
  have h2 : m.num? "seqNo" = some 2 := (of_decide_eq_true h1) hs.1
  rw [h2] at hq
  have hq2 : q = 2 := UInt8.toNat_inj.mp (by simpa using (Int.ofNat_inj.mp (Option.some.inj hq)).symm)
  have hn3 : n = 3 := UInt8.toNat_inj.mp (by simpa using hn.symm)
  subst hq2 hn3
  have h3 : (run init mixed).gw.conn.out.all (fun b => b.reverse.take 5 != [3, 15, 2, 0x03, 0x52]) = true := by decide +kernel
  have := List.all_eq_true.1 h3 _ hx
  rw [getLast5] at this
  exact absurd this (by decide)

/-- Node `n` was listed in a node list report, a datagram of the connection or one to the listening socket. -/
def ListedIn (ops : List Op) (n : Nat) : Prop :=
  ∃ m l, (Received ops m ∨ ∃ pkt sender order p, .gw (.unsolicited pkt sender order) ∈ ops ∧ decode pkt = .ok p ∧ p.command = some m) ∧ m.hid = 0x5202 ∧
    m.attr "nodes" = some (.nodeSet l) ∧ n ∈ l

/-- Where what a node object says came from. -/
def Origin (ops : List Op) (nd : Nd) : Prop :=
  (nd.ep = 0 ∧ ∃ m, Received ops m ∧ Says m nd.info) ∨ (1 ≤ nd.ep ∧ ∃ p m x, Received ops p ∧ Says p x ∧ Received ops m ∧ SaysEnd x m nd.info)

theorem classList_ok {m : Msg} {l : List Nat} (h : classList m = .ok l) : ∃ b, m.attr "commandClass" = some (.bytes b) ∧ l = b.map UInt8.toNat := by
  unfold classList at h
  split at h
  · rename_i b hb; cases h; exact ⟨b, hb, rfl⟩
  · cases h

theorem nodeInfo_says {m : Msg} {x : Info} (hh : m.hid = 0x5204) (h : nodeInfo m = .ok x) : Says m x := by
  unfold nodeInfo at h
  cases hc : classList m with
  | error e => rw [hc] at h; cases h
  | ok l =>
    rw [hc] at h; cases h
    obtain ⟨b, hb, rfl⟩ := classList_ok hc
    exact ⟨hh, b, hb, rfl⟩

theorem endPointInfo_says {m : Msg} {nd : Nd} {x : Info} (hh : m.hid = 0x5208) (h : endPointInfo nd m = .ok x) : SaysEnd nd.info m x := by
  unfold endPointInfo at h
  cases hc : classList m with
  | error e => rw [hc] at h; cases h
  | ok l =>
    rw [hc] at h; cases h
    obtain ⟨b, hb, rfl⟩ := classList_ok hc
    exact ⟨hh, b, hb, rfl⟩

theorem reportNodes_attr {m : Msg} {l : List Nat} (h : Gateway.reportNodes m = some l) : m.attr "nodes" = some (.nodeSet l) := by
  unfold Gateway.reportNodes at h
  split at h
  · rename_i l' hl; cases h; exact hl
  · cases h

/-- What end points inherit is what the node's own report says. -/
def Known (ops : List Op) (nd : Nd) : Prop :=
  ListedIn ops nd.root ∧ Origin ops nd ∧ ∃ p x, Received ops p ∧ Says p x ∧ nd.info.basic = x.basic ∧ nd.info.listening = x.listening

/-- **C132**, what holds in every history: every node object of the table stands for a node that was listed; a node says what a node info report said, an end point what a
capability report said and, for what it shares with its node, what a node info report said. -/
theorem C132_origin_partial (ops : List Op) (k : Str) (nd : Nd) (h : (k, nd) ∈ (run init ops).app.nodes) : ListedIn ops nd.root ∧ Origin ops nd := by
  have hr : Rules ops (fun _ n => ListedIn ops n) (ListedIn ops) (Known ops) := by
    refine ⟨⟨fun _ _ _ _ _ h => h, ?_⟩, fun _ _ h _ => h, ?_, ?_⟩
    · intro m l n hm hh hl hn
      exact ⟨m, l, .inl hm, hh, reportNodes_attr hl, hn⟩
    · intro m n o x hm hh hx hq
      have := nodeInfo_says hh hx
      exact ⟨hq, .inl ⟨rfl, m, hm, this⟩, m, x, hm, this, rfl, rfl⟩
    · intro m nd ep o x hm hh hx hq hN hep
      obtain ⟨-, -, p, y, hp, hy, h1, h2⟩ := hN
      have hs := endPointInfo_says hh hx
      have hs' : SaysEnd y m x := by
        obtain ⟨a, b, c, d⟩ := hs
        exact ⟨a, b, c, by rw [d, h1, h2]⟩
      have hd := hs'
      obtain ⟨-, b, -, d⟩ := hd
      exact ⟨hq, .inr ⟨hep, p, m, y, hp, hy, hm, hs'⟩, p, y, hp, hy, by rw [d], by rw [d]⟩
  obtain ⟨g, hi⟩ := inv_run hr (by
    intro a pkt sender order z l n hops ⟨p, m, hd, hc, hh, hl⟩ hn
    exact ⟨m, l, .inr ⟨pkt, sender, order, p, by rw [hops]; simp, hd, hc⟩, hh, reportNodes_attr hl, hn⟩)
  obtain ⟨h1, h2, -⟩ := hi.keeps.nodes _ h
  exact ⟨h1, h2⟩

/-- The reports on the wire: the information of a node ... -/
theorem C132_info (seq status flags opt res basic generic specific : UInt8) (c : UInt8) (cs : Bytes) :
    ∃ m, decode (0x52 :: 0x04 :: seq :: status :: flags :: opt :: res :: basic :: generic :: specific :: c :: cs) = .ok m ∧ m.num? "seqNo" = some (seq.toNat : Int) ∧
      Says m ⟨(c :: cs).map UInt8.toNat, basic.toNat, generic.toNat, specific.toNat, decide (128 ≤ flags.toNat)⟩ := by
  rw [decode_def (d := Reg.NetworkManagementProxy.NodeInfoCachedReport) (by decide +kernel) _ _ (by decide)]
  simp only [Reg.NetworkManagementProxy.NodeInfoCachedReport]
  step_u8 seq
  step_bits 4 status
  step_bits 4 status
  step_bits 1 flags
  step_bits 7 flags
  step_bits 1 opt
  step_bits 7 opt
  step_bits 8 res
  step_u8 basic
  step_u8 generic
  step_u8 specific
  rw [show 0x52 :: 0x04 :: seq :: status :: flags :: opt :: res :: basic :: generic :: specific :: c :: cs =
    [0x52, 0x04, seq, status, flags, opt, res, basic, generic, specific] ++ c :: cs from rfl, parse_last (start := 80) rfl (by decide), if_neg (by simp)]
  have e : (Reader.mk ([0x52, 0x04, seq, status, flags, opt, res, basic, generic, specific] ++ c :: cs) 80).remaining.1 = c :: cs := by simp [Reader.remaining]
  simp only [readField, deserVal, e, bind, Except.bind, coerce, String.reduceEq, Dict.set]
  refine ⟨_, rfl, rfl, rfl, c :: cs, rfl, ?_⟩
  simp [Msg.num?, Msg.attr, Msg.attrs, Dict.get?, Msg.flag]
  have := flags.toNat_lt
  rw [Bool.eq_iff_iff]
  simp only [decide_eq_true_eq, bne_iff_ne, ne_eq]
  omega

/-- ... without command classes, which is what is reported for a node the gateway knows nothing of, it has no list of them ... -/
theorem C132_info_empty (seq status flags opt res basic generic specific : UInt8) :
    ∃ m, decode [0x52, 0x04, seq, status, flags, opt, res, basic, generic, specific] = .ok m ∧ m.hid = 0x5204 ∧ m.attr "commandClass" = none := by
  rw [decode_def (d := Reg.NetworkManagementProxy.NodeInfoCachedReport) (by decide +kernel) _ _ (by decide)]
  simp only [Reg.NetworkManagementProxy.NodeInfoCachedReport]
  step_u8 seq
  step_bits 4 status
  step_bits 4 status
  step_bits 1 flags
  step_bits 7 flags
  step_bits 1 opt
  step_bits 7 opt
  step_bits 8 res
  step_u8 basic
  step_u8 generic
  step_u8 specific
  rw [show [0x52, 0x04, seq, status, flags, opt, res, basic, generic, specific] = [0x52, 0x04, seq, status, flags, opt, res, basic, generic, specific] ++ [] from rfl,
    parse_last (start := 80) rfl (by decide), if_pos rfl]
  exact ⟨_, rfl, rfl, rfl⟩

/-- ... and that of an end point: the list of command classes is all that follows, whatever its length field says. -/
theorem C132_capability (seq node length ep generic specific : UInt8) (c : UInt8) (cs : Bytes) (p : Info) :
    ∃ m, decode (0x52 :: 0x08 :: seq :: node :: length :: ep :: generic :: specific :: c :: cs) = .ok m ∧ m.num? "nodeID" = some (node.toNat : Int) ∧
      m.num? "endPoint" = some ((ep.toNat % 128 : Nat) : Int) ∧ SaysEnd p m ⟨(c :: cs).map UInt8.toNat, p.basic, generic.toNat, specific.toNat, p.listening⟩ := by
  rw [decode_def (d := Reg.NetworkManagementProxy.MultiChannelCapabilityReport) (by decide +kernel) _ _ (by decide)]
  simp only [Reg.NetworkManagementProxy.MultiChannelCapabilityReport]
  step_u8 seq
  step_u8 node
  step_u8 length
  step_bits 1 ep
  step_bits 7 ep
  step_u8 generic
  step_u8 specific
  rw [show 0x52 :: 0x08 :: seq :: node :: length :: ep :: generic :: specific :: c :: cs =
    [0x52, 0x08, seq, node, length, ep, generic, specific] ++ c :: cs from rfl, parse_last (start := 64) rfl (by decide), if_neg (by simp)]
  have e : (Reader.mk ([0x52, 0x08, seq, node, length, ep, generic, specific] ++ c :: cs) 64).remaining.1 = c :: cs := by simp [Reader.remaining]
  simp only [readField, deserVal, e, bind, Except.bind, coerce, String.reduceEq, Dict.set]
  refine ⟨_, rfl, rfl, ?_, rfl, c :: cs, rfl, ?_⟩
  · simp [Msg.num?, Msg.attr, Msg.attrs, Dict.get?]
  · simp [Msg.num?, Msg.attr, Msg.attrs, Dict.get?]

/-- `booted`: the table, what the listeners are told, and the gateway's own node is left out. -/
example : ((run init booted).app.nodes.map fun p => (p.1, p.2.root, p.2.ep, p.2.info)) =
      [(App.key 2 0, 2, 0, ⟨[0x25], 4, 16, 1, true⟩), (App.key 3 0, 3, 0, ⟨[0x60, 0x25], 4, 16, 1, true⟩), (App.key 3 1, 3, 1, ⟨[0x26], 4, 17, 2, true⟩)] ∧
    (run init booted).app.calls = [.done (.ok ())] ∧ (run init booted).gw.nodeId = some 1 := by
  decide +kernel

/-! ## C133 -/

/-- A node list report that reached the gateway. -/
def Reported (ops : List Op) (m : Msg) : Prop :=
  m.hid = 0x5202 ∧ (Received ops m ∨ ∃ pkt sender order p, .gw (.unsolicited pkt sender order) ∈ ops ∧ decode pkt = .ok p ∧ p.command = some m)

/-- The full property: the controller is not in the table of nodes. -/
def C133_statement : Prop :=
  ∀ (ops : List Op) (c : Int), (∀ m, Reported ops m → m.num? "nodeListControllerId" = some c) →
    ∀ k nd, (k, nd) ∈ (run init ops).app.nodes → (nd.root : Int) ≠ c

/-- A node list report arrives by itself before startup. -/
def early : List Op :=
  [.gw (.conn .connect), .gw (.unsolicited (nodeListPacket plain 1 0 1 (mask 3)) (addr 9) [])] ++
    (Props.Gateway.answered 0 0 1 (addr 1) ++ Props.Gateway.answered 1 0 2 (addr 2)).map .gw ++ [.startup, .resume 0 []] ++
    [.gw (.conn (.packet (ackOf 1))), .gw (.conn (.resume 0)), .gw (.job 2 []), .gw (.conn (.packet (answer (switchInfo 1)))), .gw (.conn (.waiter (.resume 2))), .gw (.job 2 []), .resume 0 []]

/-- The datagrams to the listening socket. -/
def pushed (ops : List Op) : List Bytes := ops.filterMap fun
  | .gw (.unsolicited b _ _) => some b
  | _ => none

theorem mem_pushed {ops : List Op} {b sender : Bytes} {order : List Nat} (h : .gw (.unsolicited b sender order) ∈ ops) : b ∈ pushed ops := by
  simp only [pushed, List.mem_filterMap]
  exact ⟨_, h, rfl⟩

theorem reported_all {ops : List Op} {f : Msg → Bool}
    (h1 : (packets ops).all (fun b => ((decode b).toOption.bind fun p => if p.hid = 0x2302 then p.command else some p).all f) = true)
    (h2 : (pushed ops).all (fun b => ((decode b).toOption.bind Msg.command).all f) = true) {m : Msg} (hm : Reported ops m) : f m = true := by
  rcases hm.2 with hm | ⟨pkt, sender, order, p, hp, hd, hc⟩
  · exact received_all h1 hm
  · have := List.all_eq_true.1 h2 pkt (mem_pushed hp)
    rw [hd] at this
    simpa only [Except.toOption, Option.bind_some, hc, Option.all_some] using this

/-- **C133 is violated**: the gateway does not take the controller id from a report that arrives by itself, `getNodeList()` does not ask once it has nodes, and
the controller is loaded as a node. -/
theorem C133_violated : ¬ C133_statement := by
  intro h
  refine h early 1 ?_ (App.key 1 0) ⟨0, 1, 0, [0x25], 4, 16, 1, true⟩ (by decide +kernel) rfl
  intro m hm
  have := reported_all (ops := early) (f := fun m => decide (m.hid = 0x5202 → m.num? "nodeListControllerId" = some 1)) (by decide +kernel) (by decide +kernel) hm
  exact of_decide_eq_true this hm.1

/-- **C133**, what holds: if the gateway already has the controller's id whenever a node list report arrives by itself, the controller is never in the table of nodes. -/
theorem C133_own_node_partial (ops : List Op) (c : Int) (hc : ∀ m, Reported ops m → m.num? "nodeListControllerId" = some c)
    (hpush : ∀ a pkt sender order z, ops = a ++ .gw (.unsolicited pkt sender order) :: z → (∃ l, UnsolicitedNodes pkt l) → (run init a).gw.nodeId = some c)
    (k : Str) (nd : Nd) (h : (k, nd) ∈ (run init ops).app.nodes) : (nd.root : Int) ≠ c := by
  have hr : Rules ops (fun d _ => d = some c) (fun n => (n : Int) ≠ c) (fun nd => (nd.root : Int) ≠ c) := by
    refine ⟨⟨fun m _ _ hm hh _ => hc m ⟨hh, .inl hm⟩, fun m _ _ hm hh _ _ => hc m ⟨hh, .inl hm⟩⟩, ?_, fun _ _ _ _ _ _ _ h => h, fun _ _ _ _ _ _ _ _ h _ _ => h⟩
    intro d n hd hn he
    subst hd
    apply hn
    simp only [Option.getD_some]
    omega
  obtain ⟨g, hi⟩ := inv_run hr (fun a pkt sender order z l n hops hu _ => hpush a pkt sender order z hops ⟨l, hu⟩)
  exact hi.keeps.nodes _ h

/-- In `booted` the controller 1 is listed, and not in the table. -/
example : (∀ m, Reported booted m → m.num? "nodeListControllerId" = some 1) ∧ pushed booted = [] ∧
    ((packets booted).filterMap fun b => ((decode b).toOption.bind Msg.command).bind Gateway.reportNodes) = [[1, 2, 3]] ∧ ((run init booted).app.nodes.map fun p => p.2.root) = [2, 3, 3] := by
  refine ⟨fun m hm => ?_, by decide +kernel⟩
  have := reported_all (ops := booted) (f := fun m => decide (m.hid = 0x5202 → m.num? "nodeListControllerId" = some 1)) (by decide +kernel) (by decide +kernel) hm
  exact of_decide_eq_true this hm.1

/-! ## C134 -/

/-- What the listeners are told of added nodes. -/
def announced (tr : List Ev) : List Ev := tr.filter fun
  | .addedAll _ _ => true
  | .added _ _ => true
  | _ => false

/-- One startup and no update. -/
def OneStartup (ops : List Op) : Prop := .update ∉ ops ∧ ops.count .startup = 1

/-- The full property: if the listeners raise nothing, then once startup has ended every node of the table has been announced. -/
def C134_statement : Prop :=
  ∀ (ops : List Op), OneStartup ops → (∀ i e, .asked i (.error e) ∉ ops) → ∀ r, (run init ops).app.calls = [.done r] →
    ∀ k nd, (k, nd) ∈ (run init ops).app.nodes → .added 0 nd ∈ (run init ops).app.trace

/-- Node 3 is silent. -/
def unanswered : List Op := [.gw (.conn .connect), .startup] ++ replied 0 0 0 (listed 7) ++ replied 1 1 0 (switchInfo 2) ++ silent 2 2 0

/-- **C134 is violated**: a node that does not answer ends startup with a TypeError, and the node that did answer is in the table and never announced. -/
theorem C134_violated : ¬ C134_statement := by
  intro h
  have := h unanswered (by unfold OneStartup; decide +kernel) (by
    intro i e he
    have : (unanswered.all fun | .asked _ _ => false | _ => true) = true := by decide +kernel
    exact absurd (List.all_eq_true.1 this _ he) (by simp)) (.error .type) (by decide +kernel) (App.key 2 0) ⟨0, 2, 0, [0x25], 4, 16, 1, true⟩ (by decide +kernel)
  revert this
  decide +kernel

/-- The announcements made when startup waits for something. -/
def Told (T : List Nd) (l : List Ev) : Pc → Prop
  | .list .startup => l = []
  | .info .startup _ _ _ => l = []
  | .eps .startup _ _ _ => l = []
  | .cap .startup _ _ _ _ _ => l = []
  | .failed => l = []
  | .addedAll .startup _ => l = [.addedAll 0 T]
  | .adding .startup todo size => size = T.length ∧ ∃ told, T = told ++ todo ∧ l = .addedAll 0 T :: told.map (.added 0)
  | .done (.ok _) => l = .addedAll 0 T :: T.map (.added 0)
  | .done (.error _) => l = [] ∨ ∃ told todo, T = told ++ todo ∧ l = .addedAll 0 T :: told.map (.added 0)
  | _ => False

/-- Startup is the only call. -/
def Alone (s : App.State) : Prop := ∃ pc, s.calls = [pc] ∧ Told (s.nodes.map Prod.snd) (announced s.trace) pc

theorem alone_goto {s : App.State} {pc : Pc} (hc : s.calls.length = 1) (h : Told (s.nodes.map Prod.snd) (announced s.trace) pc) : Alone (s.goto 0 pc) := by
  refine ⟨pc, ?_, h⟩
  obtain ⟨q, hq⟩ := List.length_eq_one_iff.mp hc
  simp only [App.State.goto, hq, List.set_cons_zero]

theorem announced_snoc (tr : List Ev) (e : Ev) : announced (tr ++ [e]) = announced tr ++ announced [e] := List.filter_append ..

theorem alone_load (new : List Nd) (rest : List Nat) {s : App.State} (hc : s.calls.length = 1) (h : announced s.trace = []) : Alone (App.load s 0 .startup new rest) := by
  induction rest with
  | nil => exact alone_goto hc h
  | cons n rest ih =>
    simp only [App.load, reduceCtorEq, false_and, if_false]
    split
    · exact ih
    · exact alone_goto hc h

theorem alone_announce {s : App.State} (hc : s.calls.length = 1) {told todo : List Nd} (ht : s.nodes.map Prod.snd = told ++ todo)
    (h : announced s.trace = .addedAll 0 (s.nodes.map Prod.snd) :: told.map (.added 0)) : Alone (App.announce s 0 .startup s.nodes.length todo) := by
  cases todo with
  | nil =>
    simp only [App.announce, ne_eq, not_true, and_false, if_false]
    refine alone_goto hc ?_
    simp only [List.append_nil] at ht
    rw [ht] at h ⊢
    exact h
  | cons nd todo =>
    simp only [App.announce, ne_eq, not_true, and_false, if_false]
    refine alone_goto (s := s.see (.added 0 nd)) hc ⟨by simp [App.State.see], told ++ [nd], ?_, ?_⟩
    · simp only [App.State.see, ht, List.append_assoc, List.singleton_append]
    · simp only [App.State.see, announced_snoc, h]
      simp [announced]

theorem alone_answer {s : App.State} (h : Alone s) (own : Nat) (i : Nat) (a : App.Ans) : Alone (App.answer { s with own := own } i a) := by
  obtain ⟨pc, hc, hp⟩ := h
  have hlen : s.calls.length = 1 := by rw [hc]; rfl
  have hsame : Alone { s with own := own } := ⟨pc, hc, hp⟩
  by_cases hi : i ≠ 0
  · have : ({ s with own := own } : App.State).calls[i]? = none := by
      apply List.getElem?_eq_none
      show s.calls.length ≤ i
      omega
    unfold App.answer
    rw [this]
    exact hsame
  have hi : i = 0 := Classical.byContradiction hi
  subst hi
  have h0 : ({ s with own := own } : App.State).calls[0]? = some pc := by show s.calls[0]? = some pc; rw [hc]; rfl
  unfold App.answer
  rw [h0]
  split
  case h_1 k e heq => cases heq; cases k <;> simp only [Told] at hp; exact alone_goto hlen (.inl hp)
  case h_2 l heq => cases heq; exact hp.elim
  case h_3 l heq =>
    cases heq
    refine alone_load _ _ hlen ?_
    simp only [App.State.see, announced_snoc]
    rw [show announced s.trace = [] from hp]; rfl
  case h_4 heq => cases heq; exact hp.elim
  case h_5 heq => cases heq; exact hp.elim
  case h_6 heq => cases heq; exact hp.elim
  case h_7 heq => cases heq; exact hp.elim
  case h_8 k n rest new e heq => cases heq; cases k <;> simp only [Told] at hp; exact alone_goto hlen (.inl hp)
  case h_9 k n rest new x heq =>
    cases heq
    cases k <;> simp only [Told] at hp
    have hp' : announced (s.trace ++ [Ev.gotInfo 0 n x]) = [] := by rw [announced_snoc, hp]; rfl
    dsimp only
    split
    · exact alone_goto hlen (.inl hp')
    · split
      · exact alone_goto hlen hp'
      · exact alone_load _ _ hlen hp'
  case h_10 k nd rest new e heq => cases heq; cases k <;> simp only [Told] at hp; exact alone_goto hlen (.inl hp)
  case h_11 k nd rest new count heq =>
    cases heq
    cases k <;> simp only [Told] at hp
    have hp' : announced (s.trace ++ [Ev.gotEps 0 nd.root count]) = [] := by rw [announced_snoc, hp]; rfl
    dsimp only
    split
    · exact alone_load _ _ hlen hp'
    · exact alone_goto hlen hp'
  case h_12 k nd ep count rest new e heq => cases heq; cases k <;> simp only [Told] at hp; exact alone_goto hlen (.inl hp)
  case h_13 k nd ep count rest new x heq =>
    cases heq
    cases k <;> simp only [Told] at hp
    have hp' : announced (s.trace ++ [Ev.gotCap 0 nd.root ep x]) = [] := by rw [announced_snoc, hp]; rfl
    dsimp only
    split
    · exact alone_goto hlen (.inl hp')
    · split
      · exact alone_load _ _ hlen hp'
      · exact alone_goto hlen hp'
  case h_14 e heq => cases heq; exact alone_goto hlen (.inl hp)
  case h_15 heq =>
    cases heq
    have hp' : announced s.trace = [] := hp
    refine alone_goto hlen ?_
    simp only [Told, App.State.see, announced_snoc, hp']
    rfl
  case h_16 k new e heq =>
    cases heq
    cases k <;> simp only [Told] at hp
    exact alone_goto hlen (.inr ⟨[], _, rfl, hp⟩)
  case h_17 heq => cases heq; exact hp.elim
  case h_18 heq => cases heq; exact alone_announce (s := { s with own := own }) hlen (told := []) rfl hp
  case h_19 k todo size e heq =>
    cases heq
    cases k <;> simp only [Told] at hp
    obtain ⟨-, told, h1, h2⟩ := hp
    exact alone_goto hlen (.inr ⟨told, todo, h1, h2⟩)
  case h_20 k todo size _ heq =>
    cases heq
    cases k <;> simp only [Told] at hp
    obtain ⟨rfl, told, h1, h2⟩ := hp
    rw [List.length_map]
    exact alone_announce (s := { s with own := own }) hlen h1 h2
  case h_21 => exact hsame

theorem issue_app (s : State) (i : Nat) : (issue s i).app = s.app := by
  unfold issue
  split <;> rfl

theorem alone_step {s : State} (h : Alone s.app) (op : Op) (h1 : op ≠ .startup) (h2 : op ≠ .update) : Alone (step s op).app := by
  cases op with
  | startup => exact absurd rfl h1
  | update => exact absurd rfl h2
  | gw o => exact h
  | asked i r =>
    simp only [step]
    split
    · simp only [goOn, issue_app]; exact alone_answer h _ _ _
    · exact h
  | resume i order =>
    simp only [step]
    split
    · split
      · split
        · simp only [goOn, issue_app]; exact alone_answer h _ _ _
        · exact h
      · exact h
    · exact h

theorem none_step {s : State} (h : s.app = App.fresh s.app.own) (op : Op) (h1 : op ≠ .startup) (h2 : op ≠ .update) : (step s op).app = App.fresh (step s op).app.own := by
  have hc : ∀ i : Nat, s.app.calls[i]? = none := fun i => by rw [h]; rfl
  have key : ∀ i a, (goOn s i a).app = App.fresh (goOn s i a).app.own := by
    intro i a
    simp only [goOn, issue_app]
    have : App.answer { s.app with own := ownId s.gw } i a = { s.app with own := ownId s.gw } := by
      unfold App.answer
      rw [show ({ s.app with own := ownId s.gw } : App.State).calls[i]? = none from hc i]
    rw [this, h]
    rfl
  cases op with
  | startup => exact absurd rfl h1
  | update => exact absurd rfl h2
  | gw o => exact h
  | asked i r =>
    simp only [step]
    split
    · exact key _ _
    · exact h
  | resume i order =>
    simp only [step]
    split
    · split
      · split
        · exact key _ _
        · exact h
      · exact h
    · exact h

/-- Startup has been called or not. -/
theorem alone_run (ops : List Op) (hu : .update ∉ ops) (hs : ops.count .startup ≤ 1) :
    (ops.count .startup = 0 → (run init ops).app = App.fresh (run init ops).app.own) ∧ (ops.count .startup = 1 → Alone (run init ops).app) := by
  induction ops using Conn.snoc_ind with
  | nil => exact ⟨fun _ => rfl, fun h => by cases h⟩
  | snoc ops op ih =>
    rw [List.count_append] at hs ⊢
    have hu' : .update ∉ ops := fun h => hu (List.mem_append_left _ h)
    have hop : op ≠ .update := fun h => hu (by simp [h])
    obtain ⟨ih1, ih2⟩ := ih hu' (by omega)
    rw [run_snoc]
    by_cases ho : op = .startup
    · subst ho
      have e : [Op.startup].count .startup = 1 := rfl
      rw [e] at hs ⊢
      refine ⟨fun h => by omega, fun _ => ?_⟩
      have h0 := ih1 (by omega)
      simp only [step, begin, issue_app, App.step]
      rw [h0]
      exact ⟨.list .startup, rfl, rfl⟩
    · have e : [op].count .startup = 0 := by rw [List.count_eq_zero]; simp; exact fun h => ho h.symm
      rw [e]
      exact ⟨fun h => none_step (ih1 h) op ho hop, fun h => alone_step (ih2 h) op ho hop⟩

/-- **C134**, what holds: if startup is the only call and has ended without an exception, the listeners were told of the whole table, and then of each of its nodes once, in order. -/
theorem C134_all_partial (ops : List Op) (h : OneStartup ops) (hd : (run init ops).app.calls = [.done (.ok ())]) :
    announced (run init ops).app.trace = .addedAll 0 ((run init ops).app.nodes.map Prod.snd) :: (run init ops).app.nodes.map fun p => .added 0 p.2 := by
  obtain ⟨pc, hc, hp⟩ := (alone_run ops h.1 (by rw [h.2]; omega)).2 h.2
  rw [hd] at hc
  cases hc
  simp only [Told] at hp
  rw [hp, List.map_map]
  rfl

/-- Answers that end a call with `e`. -/
def Bad (e : PyErr) : App.Ans → Prop
  | .list r => r = .error e
  | .info r => r = .error e ∨ ∃ x, r = .ok x ∧ Node.classes x.classes = .error e
  | .eps r => r = .error e
  | .cap r => r = .error e ∨ ∃ x, r = .ok x ∧ Node.classes x.classes = .error e
  | .failed r => r = .error e
  | .asked r => r = .error e

theorem goto_done {s : App.State} {pc : Pc} {e : PyErr} (hc : s.calls.length = 1) (h : (s.goto 0 pc).calls = [.done (.error e)]) : pc = .done (.error e) := by
  obtain ⟨q, hq⟩ := List.length_eq_one_iff.mp hc
  simpa only [App.State.goto, hq, List.set_cons_zero, List.cons.injEq, and_true] using h

theorem load_no_error (new : List Nd) (rest : List Nat) {s : App.State} (hc : s.calls.length = 1) (e : PyErr) : (App.load s 0 .startup new rest).calls ≠ [.done (.error e)] := by
  induction rest with
  | nil => exact fun h => by cases goto_done hc h
  | cons n rest ih =>
    simp only [App.load, reduceCtorEq, false_and, if_false]
    split
    · exact ih
    · exact fun h => by cases goto_done hc h

theorem announce_no_error {s : App.State} (hc : s.calls.length = 1) (todo : List Nd) (e : PyErr) : (App.announce s 0 .startup s.nodes.length todo).calls ≠ [.done (.error e)] := by
  cases todo <;> simp only [App.announce, ne_eq, not_true, and_false, if_false]
  · exact fun h => by cases goto_done hc h
  · exact fun h => by cases goto_done (s := App.State.see _ _) hc h

theorem answer_bad {s : App.State} (h : Alone s) (own : Nat) (i : Nat) (a : App.Ans) (e : PyErr) (hn : s.calls ≠ [.done (.error e)])
    (hd : (App.answer { s with own := own } i a).calls = [.done (.error e)]) : i = 0 ∧ Bad e a := by
  obtain ⟨pc, hc, hp⟩ := h
  have hlen : s.calls.length = 1 := by rw [hc]; rfl
  by_cases hi : i ≠ 0
  · have : ({ s with own := own } : App.State).calls[i]? = none := by
      apply List.getElem?_eq_none
      show s.calls.length ≤ i
      omega
    unfold App.answer at hd
    rw [this] at hd
    exact absurd hd hn
  have hi : i = 0 := Classical.byContradiction hi
  subst hi
  refine ⟨rfl, ?_⟩
  have h0 : ({ s with own := own } : App.State).calls[0]? = some pc := by show s.calls[0]? = some pc; rw [hc]; rfl
  unfold App.answer at hd
  rw [h0] at hd
  split at hd
  case h_1 heq => cases goto_done hlen hd; rfl
  case h_2 heq => cases heq; exact hp.elim
  case h_3 heq => exact (load_no_error _ _ (by exact hlen) e hd).elim
  case h_4 heq => cases goto_done hlen hd; rfl
  case h_5 heq => cases heq; exact hp.elim
  case h_6 heq => cases goto_done hlen hd; rfl
  case h_7 heq => cases heq; exact hp.elim
  case h_8 heq => cases goto_done hlen hd; exact .inl rfl
  case h_9 k n rest new x heq =>
    cases heq
    cases k <;> simp only [Told] at hp
    dsimp only at hd
    split at hd
    · rename_i e' he; cases goto_done hlen hd; exact .inr ⟨x, rfl, he⟩
    · split at hd
      · cases goto_done hlen hd
      · exact (load_no_error _ _ (by exact hlen) e hd).elim
  case h_10 heq => cases goto_done hlen hd; rfl
  case h_11 k nd rest new count heq =>
    cases heq
    cases k <;> simp only [Told] at hp
    dsimp only at hd
    split at hd
    · exact (load_no_error _ _ (by exact hlen) e hd).elim
    · cases goto_done hlen hd
  case h_12 heq => cases goto_done hlen hd; exact .inl rfl
  case h_13 k nd ep count rest new x heq =>
    cases heq
    cases k <;> simp only [Told] at hp
    dsimp only at hd
    split at hd
    · rename_i e' he; cases goto_done hlen hd; exact .inr ⟨x, rfl, he⟩
    · split at hd
      · exact (load_no_error _ _ (by exact hlen) e hd).elim
      · cases goto_done hlen hd
  case h_14 heq => cases goto_done hlen hd; rfl
  case h_15 heq => cases goto_done hlen hd
  case h_16 heq => cases goto_done hlen hd; rfl
  case h_17 heq => cases heq; exact hp.elim
  case h_18 heq => exact absurd hd (announce_no_error (s := { s with own := own }) hlen _ e)
  case h_19 heq => cases goto_done hlen hd; rfl
  case h_20 k todo size _ heq =>
    cases heq
    cases k <;> simp only [Told] at hp
    obtain ⟨rfl, -⟩ := hp
    rw [List.length_map] at hd
    exact absurd hd (announce_no_error (s := { s with own := own }) hlen _ e)
  case h_21 => exact absurd hd hn

/-- What ends startup with `e`: a listener raises it; the adapter's call that startup awaits raises it; it is a TypeError and the adapter returned a report without a list
of command classes (because none arrived in time, or because it has none) or no list of failed nodes; or the list of command classes is one `Node()` cannot read (C48). -/
def Cause (s : State) (op : Op) (e : PyErr) : Prop :=
  op = .asked 0 (.error e) ∨ ∃ order j r, op = .resume 0 order ∧ s.waits 0 = some j ∧ s.gw.jobs[j]? = some (.done r) ∧
    (r = .error e ∨ (e = .type ∧ (r = .ok (.val none) ∨ ∃ m, r = .ok (.msg m) ∧ ∀ b, m.attr "commandClass" ≠ some (.bytes b))) ∨
      ∃ m b, r = .ok (.msg m) ∧ m.attr "commandClass" = some (.bytes b) ∧ Node.classes (b.map UInt8.toNat) = .error e)

theorem report_bad {m : Msg} {r : Py Info} {f : List Nat → Info} (hf : ∀ l, (f l).classes = l) (hr : r = (classList m).map f) {e : PyErr}
    (h : r = .error e ∨ ∃ x, r = .ok x ∧ Node.classes x.classes = .error e) :
    (e = .type ∧ ∀ b, m.attr "commandClass" ≠ some (.bytes b)) ∨ ∃ b, m.attr "commandClass" = some (.bytes b) ∧ Node.classes (b.map UInt8.toNat) = .error e := by
  subst hr
  unfold classList at h
  split at h
  · rename_i b hb
    rcases h with h | ⟨x, h, hx⟩
    · cases h
    · cases h
      rw [hf] at hx
      exact .inr ⟨b, hb, hx⟩
  · rename_i hb
    rcases h with h | ⟨x, h, hx⟩
    · cases h
      exact .inl ⟨rfl, fun b hb' => hb b hb'⟩
    · cases h

theorem answerOf_bad {pc : Pc} {r : Py Gateway.Ret} {order : List Nat} {a : App.Ans} (ha : answerOf pc r order = some a) {e : PyErr} (h : Bad e a) :
    r = .error e ∨ (e = .type ∧ (r = .ok (.val none) ∨ ∃ m, r = .ok (.msg m) ∧ ∀ b, m.attr "commandClass" ≠ some (.bytes b))) ∨
      ∃ m b, r = .ok (.msg m) ∧ m.attr "commandClass" = some (.bytes b) ∧ Node.classes (b.map UInt8.toNat) = .error e := by
  cases pc <;> simp only [answerOf, reduceCtorEq] at ha <;> split at ha <;> cases ha
  · cases h
  · cases h; exact .inl rfl
  · rename_i m
    rcases report_bad (f := fun l => ⟨l, _, _, _, _⟩) (fun _ => rfl) (m := m) rfl h with ⟨h1, h2⟩ | ⟨b, h1, h2⟩
    · exact .inr (.inl ⟨h1, .inr ⟨m, rfl, h2⟩⟩)
    · exact .inr (.inr ⟨m, b, rfl, h1, h2⟩)
  · rcases h with h | ⟨x, h, -⟩
    · cases h; exact .inl rfl
    · cases h
  · cases h
  · cases h; exact .inl rfl
  · rename_i m
    rcases report_bad (f := fun l => ⟨l, _, _, _, _⟩) (fun _ => rfl) (m := m) rfl h with ⟨h1, h2⟩ | ⟨b, h1, h2⟩
    · exact .inr (.inl ⟨h1, .inr ⟨m, rfl, h2⟩⟩)
    · exact .inr (.inr ⟨m, b, rfl, h1, h2⟩)
  · rcases h with h | ⟨x, h, -⟩
    · cases h; exact .inl rfl
    · cases h
  · cases h
  · cases h
  · cases h; exact .inr (.inl ⟨rfl, .inl rfl⟩)
  · cases h; exact .inl rfl

/-- **C134.** If startup is the only call and has ended with an exception, one of the causes above was there. -/
theorem C134_cause (ops : List Op) (h : OneStartup ops) (e : PyErr) (hd : (run init ops).app.calls = [.done (.error e)]) :
    ∃ a op z, ops = a ++ op :: z ∧ Cause (run init a) op e := by
  obtain ⟨hu, hs⟩ := h
  have key : ∀ a z, ops = a ++ z → (run init a).app.calls = [.done (.error e)] → ∃ a op z, ops = a ++ op :: z ∧ Cause (run init a) op e := by
    intro a
    induction a using Conn.snoc_ind with
    | nil => intro z _ h; cases h
    | snoc a op ih =>
      intro z hz hd
      have hz' : ops = a ++ op :: z := by simpa using hz
      by_cases hn : (run init a).app.calls = [.done (.error e)]
      · exact ih _ hz' hn
      refine ⟨a, op, z, hz', ?_⟩
      rw [run_snoc] at hd
      have hua : .update ∉ a := fun h => hu (by rw [hz']; simp [h])
      have hop : op ≠ .update := fun h => hu (by rw [hz']; simp [h])
      have hca : a.count .startup ≤ 1 := by
        rw [hz', List.count_append] at hs; omega
      obtain ⟨k1, k2⟩ := alone_run a hua hca
      have hsome : a.count .startup = 1 := by
        rcases Nat.lt_or_ge (a.count .startup) 1 with hlt | hge
        · have h0 := k1 (by omega)
          by_cases ho : op = .startup
          · subst ho
            simp only [step, begin, issue_app, App.step] at hd
            rw [h0] at hd
            cases hd
          · rw [none_step h0 op ho hop] at hd
            cases hd
        · omega
      have hal := k2 hsome
      have hst : op ≠ .startup := by
        rintro rfl
        rw [hz', List.count_append, List.count_cons_self] at hs
        omega
      cases op with
      | startup => exact absurd rfl hst
      | update => exact absurd rfl hop
      | gw o => exact absurd hd hn
      | asked i r =>
        simp only [step] at hd
        split at hd
        · simp only [goOn, issue_app] at hd
          obtain ⟨rfl, hb⟩ := answer_bad hal _ _ _ e hn hd
          cases hb
          exact .inl rfl
        · exact absurd hd hn
      | resume i order =>
        simp only [step] at hd
        split at hd
        · rename_i pc j hpc hw
          split at hd
          · rename_i r hj
            split at hd
            · rename_i x hx
              simp only [goOn, issue_app] at hd
              obtain ⟨rfl, hb⟩ := answer_bad hal _ _ _ e hn hd
              exact .inr ⟨order, j, r, rfl, hw, hj, answerOf_bad hx hb⟩
            · exact absurd hd hn
          · exact absurd hd hn
        · exact absurd hd hn
  exact key ops [] (by simp) hd

/-- `booted` ends without an exception, and tells of the three nodes. -/
example : OneStartup booted ∧ (run init booted).app.calls = [.done (.ok ())] ∧ (announced (run init booted).app.trace).length = 4 := by
  unfold OneStartup
  decide +kernel

/-- A report without command classes ends startup with a TypeError too. -/
example : (run init ([.gw (.conn .connect), .startup] ++ replied 0 0 0 (listed 7) ++ replied 1 1 0 (switchInfo 2) ++ replied 2 2 0 [0x52, 0x04, 3, 0, 0x80, 0, 0, 4, 16, 1])).app.calls =
    [.done (.error .type)] := by
  decide +kernel

end Props.Boot

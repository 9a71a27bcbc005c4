import Verif.Lemmas.Newest
import Verif.Props.Gateway
/-!
# What the gateway's calls return, and what goes wrong when they overlap

Properties C82-C89. See `Props/Gateway.lean` for the node table and the connections.
-/
namespace Props.GatewayCalls
open Spec Model Model.Gateway Props.Gateway

/-- A command in a Z/IP packet, for the examples. -/
def answer (cmd : Bytes) : Bytes := plain.bytes ++ cmd

/-- An acknowledgement of the first packet. -/
def ack : Bytes := [0x23, 0x02, 0x40, 0x10, 0x01, 0x00, 0x00]

/-! ## C82 -/

/-- The full property: when the handlers of all node list reports have ended without an exception, the table has exactly the nodes of the newest report. -/
def C82_statement : Prop :=
  ∀ (ops ops' : List Op) (h : ZipHeader) (seq status ctl : UInt8) (mask : Bytes) (sender : Bytes) (order : List Nat), h.Fits → h.ext = false → mask.length = 28 →
    (∀ op ∈ ops', touchesTable op = false) →
    let s := run (step (run init ops) (.unsolicited (nodeListPacket h seq status ctl mask) sender order)) ops'
    (∀ j ∈ s.jobs, j = .done (.ok .unit)) → ∀ n, n ∈ s.nodes.keys ↔ MarkedIn mask n

/-- **C82 is violated.** Node 1 is known. A report lists 1 and 2; while 2 is looked up a newer report lists only 1. The first handler then adds node 2. -/
theorem C82_violated : ¬ C82_statement := by
  intro h
  have := h ([.conn .connect, .unsolicited (nodeListPacket plain 1 0 1 (mask 1)) (addr 9) []] ++ answered 0 0 1 (addr 1) ++
      [.unsolicited (nodeListPacket plain 2 0 1 (mask 3)) (addr 9) []]) (answered 1 1 2 (addr 2)) plain 3 0 1 (mask 1) (addr 9) []
      ⟨by decide, by decide, by decide⟩ rfl rfl (by decide +kernel)
  have h2 := (this (by decide +kernel) 2).mp (by decide +kernel)
  obtain ⟨-, b, hb, ht⟩ := h2
  simp [mask] at hb
  subst hb
  revert ht
  decide

/-- A handler of an earlier report (or `connect()`) has still to look up the node. -/
def LookedUp (s : State) (n : Nat) : Prop := ∃ cur todo t, (.report cur todo t ∈ s.jobs ∨ .setup cur todo t ∈ s.jobs) ∧ (n = cur ∨ n ∈ todo)

/-- **C82**, what holds: after a report the table never has other nodes than those of the report and those that earlier handlers had still to look up when it arrived; and when its own handler
has ended without an exception the table has all nodes of the report, whatever the others do. -/
theorem C82_newest_partial (s0 : State) (h : ZipHeader) (hf : h.Fits) (hx : h.ext = false) (seq status ctl : UInt8) (mask : Bytes) (hm : mask.length = 28)
    (sender : Bytes) (order : List Nat) (ops : List Op) (hask : ∀ t k, .ask .list t k ∉ s0.jobs ∧ .ask .setup t k ∉ s0.jobs) (hops : ∀ op ∈ ops, touchesTable op = false) :
    let s := run (step s0 (.unsolicited (nodeListPacket h seq status ctl mask) sender order)) ops
    (∀ n ∈ s.nodes.keys, MarkedIn mask n ∨ LookedUp s0 n) ∧
    ∀ r, s.jobs[s0.jobs.length]? = some (.done (.ok r)) → ∀ n, MarkedIn mask n → n ∈ s.nodes.keys := by
  obtain ⟨p, c, l, e1, e2, e3, e4, -, hl⟩ := nodeListPacket_decode h hf hx seq status ctl mask hm
  have hst := handler_started s0 _ sender order p c l e1 e2 e3 e4
  have hstart := handling_start s0 l order
  simp only at hst
  have hen := reportLoop_enters (P := fun n => MarkedIn mask n ∨ LookedUp s0 n) (iter l order) { s0 with nodes := s0.nodes.filter (fun p => p.1 ∈ l) }
    (fun n hn => .inl ((hl n).mp ((mem_iter l order n).mp hn)))
  have hcov := reportLoop_covers l (iter l order) { s0 with nodes := s0.nodes.filter (fun p => p.1 ∈ l) } hstart.all
  obtain ⟨cc, kk, j, hfr⟩ := reportLoop_frame (iter l order) { s0 with nodes := s0.nodes.filter (fun p => p.1 ∈ l) }
  rw [hfr] at hst hen hcov
  have hb : Bound (fun n => MarkedIn mask n ∨ LookedUp s0 n) (step s0 (.unsolicited (nodeListPacket h seq status ctl mask) sender order)) := by
    rw [hst]
    refine ⟨fun n hn => .inl ((hl n).mp (hstart.sub n hn)), fun x hx' => ?_⟩
    rcases List.mem_append.mp hx' with hx' | hx'
    · cases x with
      | report cur todo t => exact ⟨.inr ⟨cur, todo, t, .inl hx', .inl rfl⟩, fun n hn => .inr ⟨cur, todo, t, .inl hx', .inr hn⟩⟩
      | setup cur todo t => exact ⟨.inr ⟨cur, todo, t, .inr hx', .inl rfl⟩, fun n hn => .inr ⟨cur, todo, t, .inr hx', .inr hn⟩⟩
      | ask a t k =>
        cases a with
        | list => exact absurd hx' (hask t k).1
        | setup => exact absurd hx' (hask t k).2
        | _ => exact True.intro
      | _ => exact True.intro
    · rw [List.mem_singleton.mp hx']; exact hen
  obtain ⟨h1, y, h2, h3⟩ := run_newest (l := l) (J := s0.jobs.length) ops hb (x := j) (by rw [hst]; simp [State.addJob]) (by rw [hst]; exact hcov.mono fun n hn => hn) hops
  refine ⟨h1.sub, fun r hr n hn => ?_⟩
  rw [hr] at h2
  cases h2
  exact h3 n ((hl n).mpr hn)

/-- **C82**, so: if the earlier handlers have only nodes of the new report still to look up, the newest list wins. -/
theorem C82_wins_partial (s0 : State) (h : ZipHeader) (hf : h.Fits) (hx : h.ext = false) (seq status ctl : UInt8) (mask : Bytes) (hm : mask.length = 28)
    (sender : Bytes) (order : List Nat) (ops : List Op) (hask : ∀ t k, .ask .list t k ∉ s0.jobs ∧ .ask .setup t k ∉ s0.jobs) (hops : ∀ op ∈ ops, touchesTable op = false)
    (hlook : ∀ n, LookedUp s0 n → MarkedIn mask n) (r : Ret) :
    let s := run (step s0 (.unsolicited (nodeListPacket h seq status ctl mask) sender order)) ops
    s.jobs[s0.jobs.length]? = some (.done (.ok r)) → ∀ n, n ∈ s.nodes.keys ↔ MarkedIn mask n := by
  intro s hd n
  obtain ⟨h1, h2⟩ := C82_newest_partial s0 h hf hx seq status ctl mask hm sender order ops hask hops
  exact ⟨fun hn => (h1 n hn).elim id (hlook n), h2 r hd n⟩

/-- Node 1 is being looked up for one report when a newer one lists 1 and 2; both handlers end, the first one last. -/
def overtaken : List Op := [.conn .connect, .unsolicited (nodeListPacket plain 1 0 1 (mask 1)) (addr 9) []]
example : LookedUp (run init overtaken) 1 := ⟨1, [], 0, .inl (by decide +kernel), .inl rfl⟩
example : ∃ ops r, (∀ op ∈ ops, touchesTable op = false) ∧ ops ≠ [] ∧
    (run (step (run init overtaken) (.unsolicited (nodeListPacket plain 2 0 1 (mask 3)) (addr 9) [])) ops).jobs = [.done (.ok .unit), .done (.ok r)] ∧
    (run (step (run init overtaken) (.unsolicited (nodeListPacket plain 2 0 1 (mask 3)) (addr 9) [])) ops).nodes.keys = [1, 2] :=
  ⟨answered 1 1 1 (addr 1) ++ answered 2 1 2 (addr 2) ++ [.conn (.waiter (.resume 0)), .job 0 []], .unit, by decide +kernel, by decide +kernel, by decide +kernel, by decide +kernel⟩

/-! ## C83 -/

/-- The full property: when the handler of a node list report has ended, the listeners have been told. -/
def C83_statement : Prop :=
  ∀ (ops ops' : List Op) (h : ZipHeader) (seq status ctl : UInt8) (mask : Bytes) (sender : Bytes) (order : List Nat), h.Fits → h.ext = false → mask.length = 28 →
    let s0 := run init ops
    let s := run (step s0 (.unsolicited (nodeListPacket h seq status ctl mask) sender order)) ops'
    (∃ r, s.jobs[s0.jobs.length]? = some (.done r)) → s0.listUpdated < s.listUpdated

/-- **C83 is violated.** Node 1 is removed from the list, node 2 is new and does not answer: the listeners never hear about either. -/
theorem C83_violated : ¬ C83_statement := by
  intro h
  have := h ([.conn .connect, .unsolicited (nodeListPacket plain 1 0 1 (mask 1)) (addr 9) []] ++ answered 0 0 1 (addr 1))
      [.conn .tick, .conn .tick, .conn .tick, .conn (.waiter (.timer 1)), .conn (.waiter (.resume 1)), .conn (.waiter (.cancelDone 1)), .job 1 []]
      plain 2 0 1 (mask 2) (addr 9) [] ⟨by decide, by decide, by decide⟩ rfl rfl ⟨.error .timeout, by decide +kernel⟩
  revert this
  decide +kernel

/-- **C83**, what holds: if the handler ends without an exception the listeners have been told (see also C44). -/
theorem C83_answered_partial (s0 : State) (h : ZipHeader) (hf : h.Fits) (hx : h.ext = false) (seq status ctl : UInt8) (mask : Bytes) (hm : mask.length = 28)
    (sender : Bytes) (order : List Nat) (ops : List Op) (r : Ret) (hidle : TableIdle s0) (hops : ∀ op ∈ ops, touchesTable op = false) :
    let s := run (step s0 (.unsolicited (nodeListPacket h seq status ctl mask) sender order)) ops
    s.jobs[s0.jobs.length]? = some (.done (.ok r)) → s.listUpdated = s0.listUpdated + 1 :=
  fun hd => (C44_table_is_report s0 h hf hx seq status ctl mask hm sender order ops r hidle hops hd).2.2.1

/-! ## C84 -/

/-- The full property: every message received on a connection that `connectToNode(n)` has returned is told to the listeners under `n`. -/
def C84_statement : Prop :=
  ∀ (ops1 ops2 : List Op) (n k : Nat), let s1 := run init ops1
    let s := run (step s1 (.connectToNode n)) ops2
    s.jobs[s1.jobs.length]? = some (.done (.ok (.conn k))) →
    ∃ l, s.links[k]? = some l ∧ ∀ o, (step s (.link k o)).told = s.told ++ ((Conn.step l.conn o).heard.drop l.conn.heard.length).map (toldOf n)

/-- **C84 is violated.** Two overlapping calls for node 5 open two connections; what arrives on the first one is dropped. -/
theorem C84_violated : ¬ C84_statement := by
  intro h
  obtain ⟨l, hl, ho⟩ := h [.conn .connect] ([.connectToNode 5, .conn (.packet (advertisement 5 (addr 5))), .conn (.waiter (.resume 0)), .conn (.waiter (.resume 1)),
    .job 0 [], .job 1 [], .opened 0 true, .opened 1 true]) 5 0 (by decide +kernel)
  have := congrArg List.length (ho (.packet [0x23, 0x02, 0x00, 0x50, 0x11, 0x02, 0x00, 0x25, 0x03, 0xFF]))
  rw [List.length_append, List.length_map] at this
  have e : l = ⟨5, addr 5, Conn.step Conn.init .connect⟩ := by
    have e2 : (run (step (run init [.conn .connect]) (.connectToNode 5)) ([.connectToNode 5, .conn (.packet (advertisement 5 (addr 5))), .conn (.waiter (.resume 0)), .conn (.waiter (.resume 1)),
      .job 0 [], .job 1 [], .opened 0 true, .opened 1 true])).links[0]? = some ⟨5, addr 5, Conn.step Conn.init .connect⟩ := by decide +kernel
    rw [e2] at hl
    exact (Option.some.inj hl).symm
  subst e
  revert this
  decide +kernel

/-- **C84**, what holds: if no two calls for the same node overlap nothing is lost. -/
theorem C84_not_overlapping_partial (ops1 ops2 : List Op) (n k : Nat) (hno : NoOverlap init (ops1 ++ .connectToNode n :: ops2)) :
    let s1 := run init ops1
    let s := run (step s1 (.connectToNode n)) ops2
    s.jobs[s1.jobs.length]? = some (.done (.ok (.conn k))) →
    ∃ l, s.links[k]? = some l ∧ ∀ o, (step s (.link k o)).told = s.told ++ ((Conn.step l.conn o).heard.drop l.conn.heard.length).map (toldOf n) :=
  C46_delivered ops1 ops2 n k hno

/-! ## C85 -/

/-- The full property: when a call that only sends a command (`addNode`, `removeNode`, ...) returns True, the command was acknowledged. -/
def C85_statement : Prop :=
  ∀ (ops : List Op) (i k : Nat) (order : List Nat), let s := run init ops
    s.jobs[i]? = some (.sent k) → (step s (.job i order)).jobs[i]? = some (.done (.ok (.bool true))) → sendResult s k = some (.ok true)

/-- **C85 is violated.** The gateway does not answer, `send` returns False after three seconds, and `removeNode` returns True. -/
theorem C85_violated : ¬ C85_statement := by
  intro h
  have := h [.conn .connect, .nm .removeNode, .conn .tick, .conn .tick, .conn .tick, .conn (.timer 0), .conn (.resume 0), .conn (.cancelled 0)] 0 0 []
  revert this
  decide +kernel

/-- **C85**, what holds: the call returns True when the send ends in any way other than an exception, and otherwise raises that exception; it never returns False. -/
theorem C85_result_partial (s : State) (i k : Nat) (order : List Nat) (r : Py Bool) (hj : s.jobs[i]? = some (.sent k)) (hr : sendResult s k = some r) :
    (step s (.job i order)).jobs[i]? = some (.done (r.map fun _ => .bool true)) := by
  have hi := (List.getElem?_eq_some_iff.mp hj).1
  cases r with
  | ok b => simp only [Gateway.step, stepJob, hj, hr, State.setJob, Except.map]; exact List.getElem?_set_self hi
  | error e => simp only [Gateway.step, stepJob, hj, hr, State.setJob, Except.map]; exact List.getElem?_set_self hi

/-! ## C86 -/

/-- **C86.** `setGatewayMode` first asks for the mode. -/
theorem C86_asks (s : State) (mode : Int) (hcon : s.conn.connected = true) :
    (step s (.setMode mode)).conn.out = s.conn.out ++ [(gatewayHeader ((s.conn.seq + 1) % 256)).bytes ++ [0x5F, 0x02]] := by
  simp only [Gateway.step, startAsk, State.addJob, afterAskSend_out]
  exact (send_ok { s.conn with w := Waiter.step s.conn.w (.call .adapter 0x5F03 3) } _ _ (by decide +kernel) hcon).1

theorem modeSet_bytes : ∀ n < 256, ∃ m, construct Reg.ZipGateway.GatewayModeSet (kw1 "mode" (.num .pyint (n : Nat)) fun _ => none) = .ok m ∧
    compose m = .ok [0x5F, 0x01, UInt8.ofNat n] := by
  intro n hn
  refine ⟨.known 0x5F01 [("mode", .num (.uint 1) n)], by rfl, ?_⟩
  revert n
  decide +kernel

/-- **C86.** When the report arrives the mode is set if and only if the reported mode differs from the requested one; the call returns True in the end. -/
theorem C86_sets_if_different (s : State) (i t k mode : Nat) (m : Msg) (order : List Nat) (hj : s.jobs[i]? = some (.ask (.mode mode) t k))
    (ht : taskDone s t = some (.ok m)) (hm : mode < 256) (hcon : s.conn.connected = true) :
    (m.num? "mode" = some (mode : Int) → (step s (.job i order)).conn.out = s.conn.out ∧ (step s (.job i order)).jobs[i]? = some (.done (.ok (.bool true)))) ∧
    (m.num? "mode" ≠ some (mode : Int) →
      (step s (.job i order)).conn.out = s.conn.out ++ [(gatewayHeader ((s.conn.seq + 1) % 256)).bytes ++ [0x5F, 0x01, UInt8.ofNat mode]]) := by
  have hi := (List.getElem?_eq_some_iff.mp hj).1
  obtain ⟨c, hc, hb⟩ := modeSet_bytes mode hm
  constructor
  · intro h
    simp only [Gateway.step, stepJob, hj, ht, afterAsk, h, if_true, State.setJob]
    exact ⟨by trivial, List.getElem?_set_self hi⟩
  · intro h
    simp only [Gateway.step, stepJob, hj, ht, afterAsk, if_neg h, hc, State.setJob, startSend, afterSend_out]
    exact (send_ok s.conn c _ hb hcon).1

/-- **C86.** Without a report in time the call returns False and sets nothing. -/
theorem C86_no_report (s : State) (i t k : Nat) (mode : Int) (order : List Nat) (hj : s.jobs[i]? = some (.ask (.mode mode) t k)) (ht : taskDone s t = some (.error .timeout)) :
    (step s (.job i order)).conn.out = s.conn.out ∧ (step s (.job i order)).jobs[i]? = some (.done (.ok (.bool false))) := by
  have hi := (List.getElem?_eq_some_iff.mp hj).1
  simp only [Gateway.step, stepJob, hj, ht, afterAsk, State.setJob]
  exact ⟨by trivial, List.getElem?_set_self hi⟩

/-- What a mode report says. -/
theorem C86_report (b : UInt8) : ∃ m, decode [0x5F, 0x03, b] = .ok m ∧ m.hid = 0x5F03 ∧ m.num? "mode" = some (b.toNat : Int) := by
  rw [decode_def (d := Reg.ZipGateway.GatewayModeReport) (by decide +kernel) _ _ (by decide)]
  simp only [Reg.ZipGateway.GatewayModeReport]
  step_u8 b
  exact ⟨_, rfl, rfl, rfl⟩

/-- The gateway is in mode 2, the command that sets mode 1 is the second one transmitted. -/
example : (run init [.conn .connect, .setMode 1, .conn (.packet ack), .conn (.resume 0), .job 0 [], .conn (.packet (answer [0x5F, 0x03, 2])),
    .conn (.waiter (.resume 0)), .job 0 []]).conn.out.map (fun b => b.drop 7) = [[0x5F, 0x02], [0x5F, 0x01, 1]] := by
  decide +kernel

/-! ## C87 -/

/-- What a query returns for a report: the nodes of the mask, the sum of the two counts, the status, or the report itself. -/
def Result (c : Nm) (report : Msg) (r : Ret) : Prop :=
  match c with
  | .getFailedNodeList => r = .val (getAttr registry report "failedNodeList")
  | .getMultiChannelEndPoints _ => ∃ a b, report.num? "individualEndPoints" = some a ∧ report.num? "aggregatedEndPoints" = some b ∧ r = .num (a + b)
  | .removeFailedNode _ => r = .val (getAttr registry report "status")
  | .getMultiChannelCapability .. => r = .msg report
  | .getNodeInfo _ => r = .msg report
  | _ => False

/-- What a query returns without a report: no nodes, zero, an empty report, or REMOVE_FAIL (2). -/
def Fallback (c : Nm) (r : Ret) : Prop :=
  match c with
  | .getFailedNodeList => r = .nodes []
  | .getMultiChannelEndPoints _ => r = .num 0
  | .removeFailedNode _ => r = .num 2
  | .getMultiChannelCapability .. => r = .msg (.known 0x5208 [])
  | .getNodeInfo _ => r = .msg (.known 0x5204 [])
  | _ => False

/-- The report of a query. -/
def reportOf : Nm → Option Nat
  | .getFailedNodeList => some 0x520C
  | .getMultiChannelEndPoints _ => some 0x5206
  | .removeFailedNode _ => some 0x3408
  | .getMultiChannelCapability .. => some 0x5208
  | .getNodeInfo _ => some 0x5204
  | _ => none

theorem waiter_inv (ops : List Op) : ∃ tag, Waiter.Inv tag (run init ops).conn.w := by
  obtain ⟨ws, hw⟩ := run_waiter ops
  obtain ⟨tag, hi⟩ := Waiter.inv_run ws
  rw [← hw] at hi
  exact ⟨tag, hi⟩

theorem inv_step {s : State} {tag : Nat → Nat} (hi : Waiter.Inv tag s.conn.w) (op : Op) : ∃ tag', Waiter.Inv tag' (step s op).conn.w := by
  obtain ⟨ws', hw', -⟩ := step_w s op
  obtain ⟨tag', hi'⟩ := hi.run ws'
  rw [← hw'] at hi'
  exact ⟨tag', hi'⟩

theorem asked (ops ops' : List Op) (c : Nm) (hid timeout : Nat) (hn : ¬ (c = .getNodeList ∧ (run init ops).nodes ≠ [])) (hw : c.waitsFor = some (hid, timeout)) :
    AskCall (fun m => ∃ b, .conn (.packet b) ∈ ops' ∧ Delivers b m) (if c = .getNodeList then .list else .nm c) hid ((run init ops).conn.now + timeout) (run init ops).jobs.length
      (run (step (run init ops) (.nm c)) ops') := by
  obtain ⟨tag, hi⟩ := waiter_inv ops
  obtain ⟨tag', hi'⟩ := inv_step hi (.nm c)
  exact (askCall_start _ _ hi c hid timeout hn hw).run (by split <;> trivial) ops' hi' ((asking_run ops).step _) (fun b m hb hd => ⟨b, hb, hd⟩)

/-- **C87.** In every history, a query that has returned has returned what a report of the right kind says that arrived after the call, or the fallback. -/
theorem C87_result (ops ops' : List Op) (c : Nm) (hid : Nat) (r : Ret) (hc : reportOf c = some hid) :
    let s := run init ops
    let s' := run (step s (.nm c)) ops'
    s'.jobs[s.jobs.length]? = some (.done (.ok r)) →
    Fallback c r ∨ ∃ b m, .conn (.packet b) ∈ ops' ∧ Delivers b m ∧ m.hid = hid ∧ Result c m r := by
  intro s s' hj
  have hw : c ≠ .getNodeList ∧ ∃ timeout, c.waitsFor = some (hid, timeout) := by
    cases c <;> simp only [reportOf, Option.some.injEq, reduceCtorEq] at hc <;> subst hc <;> exact ⟨by simp, _, rfl⟩
  obtain ⟨hn, timeout, hw⟩ := hw
  obtain ⟨x, hx, h⟩ := asked ops ops' c hid timeout (fun h => hn h.1) hw
  rw [if_neg hn] at h
  rw [show (Gateway.run (Gateway.step (run init ops) (.nm c)) ops').jobs[(run init ops).jobs.length]? = _ from hj] at hx
  cases hx
  rcases h with ⟨t, k, h1, -⟩ | ⟨e, h1⟩ | ⟨-, h1⟩ | ⟨m, ⟨b, hb, hd⟩, hm, h1⟩
  · cases h1
  · cases h1
  · left
    have h1 : Job.done (.ok r) = .done (.ok (noAnswer c)) := h1
    cases h1
    cases c <;> simp only [reportOf, reduceCtorEq] at hc <;> rfl
  · right
    refine ⟨b, m, hb, hd, hm, ?_⟩
    have h1 : Job.done (.ok r) = .done (Gateway.answer c m) := h1
    have h1 : Gateway.answer c m = .ok r := by injection h1 with h1; exact h1.symm
    cases c <;> simp only [reportOf, reduceCtorEq] at hc
    case getMultiChannelEndPoints n =>
      simp only [Gateway.answer] at h1
      split at h1
      · rename_i a b ha hb'
        cases h1
        exact ⟨a, b, ha, hb', rfl⟩
      · cases h1
    all_goals
      simp only [Gateway.answer, Except.ok.injEq] at h1
      exact h1.symm

/-- **C87.** `getNodeList()` returns the nodes of the table if there are any, and transmits nothing. -/
theorem C87_cached (s : State) (hn : s.nodes ≠ []) :
    (step s (.nm .getNodeList)).jobs = s.jobs ++ [.done (.ok (.nodes s.nodes.keys))] ∧ (step s (.nm .getNodeList)).conn = s.conn := by
  simp only [Gateway.step, startNm, true_and, if_pos hn, State.addJob, and_self]

/-- **C87.** Otherwise it returns the nodes of a report that arrived after the call, or none. -/
theorem C87_list (ops ops' : List Op) (r : Ret) :
    let s := run init ops
    let s' := run (step s (.nm .getNodeList)) ops'
    s.nodes = [] → s'.jobs[s.jobs.length]? = some (.done (.ok r)) →
    r = .nodes [] ∨ ∃ b m l, .conn (.packet b) ∈ ops' ∧ Delivers b m ∧ m.hid = 0x5202 ∧ m.attr "nodes" = some (.nodeSet l) ∧ r = .nodes l := by
  intro s s' hs hj
  obtain ⟨x, hx, h⟩ := asked ops ops' .getNodeList 0x5202 3 (fun h => h.2 hs) rfl
  rw [if_pos rfl] at h
  rw [show (Gateway.run (Gateway.step (run init ops) (.nm .getNodeList)) ops').jobs[(run init ops).jobs.length]? = _ from hj] at hx
  cases hx
  rcases h with ⟨t, k, h1, -⟩ | ⟨e, h1⟩ | ⟨-, h1⟩ | ⟨m, ⟨b, hb, hd⟩, hm, h1⟩
  · cases h1
  · cases h1
  · left
    have h1 : Job.done (.ok r) = .done (.ok (.nodes [])) := h1
    cases h1
    rfl
  · right
    simp only [Ask.ended, afterAsk, storeList, reportNodes] at h1
    split at h1
    · rename_i s2 l hl
      split at hl
      · rename_i e
        split at e
        · cases e
        · cases hl
      · rename_i l' e
        split at e
        · rename_i l'' e'
          cases e
          simp only [Prod.mk.injEq, Except.ok.injEq] at hl
          obtain ⟨-, rfl⟩ := hl
          cases h1
          exact ⟨b, m, _, hb, hd, hm, e', rfl⟩
        · cases e
    · cases h1

/-- **C87.** When it returns, the table holds exactly the nodes of that report, without addresses, and the gateway has the controller id of the report; without a report
both are as before. -/
theorem C87_stored (ops ops' : List Op) (order : List Nat) (l : List Nat) :
    let s := run init ops
    let s1 := run (step s (.nm .getNodeList)) ops'
    let s2 := step s1 (.job s.jobs.length order)
    s.nodes = [] → (∀ r, s1.jobs[s.jobs.length]? ≠ some (.done r)) → s2.jobs[s.jobs.length]? = some (.done (.ok (.nodes l))) →
    (l = [] ∧ s2.nodes = s1.nodes ∧ s2.nodeId = s1.nodeId) ∨
    ∃ b m, .conn (.packet b) ∈ ops' ∧ Delivers b m ∧ m.hid = 0x5202 ∧ m.attr "nodes" = some (.nodeSet l) ∧
      s2.nodes = l.map (fun n => (n, none)) ∧ s2.nodeId = m.num? "nodeListControllerId" := by
  intro s s1 s2 hs hnd hj
  have hcall := asked ops ops' .getNodeList 0x5202 3 (fun h => h.2 hs) rfl
  rw [if_pos rfl] at hcall
  change AskCall _ _ _ _ s.jobs.length s1 at hcall
  obtain ⟨tag, hi⟩ : ∃ tag, Waiter.Inv tag s1.conn.w := by
    have := waiter_inv (ops ++ .nm .getNodeList :: ops')
    have e : run init (ops ++ .nm .getNodeList :: ops') = s1 := by rw [run_append]; rfl
    rwa [e] at this
  clear_value s1
  obtain ⟨x, hx, hc⟩ := hcall
  rcases hc with ⟨t, k, rfl, ⟨u, hu, hh, -, hm⟩, -⟩ | ⟨e, h⟩ | ⟨-, h⟩ | ⟨m, -, -, h⟩
  · cases hd : taskDone s1 t with
    | none =>
      exfalso
      have : s2.jobs[s.jobs.length]? = some (.ask .list t k) := by
        simp only [s2, Gateway.step, stepJob, hx, hd]
        split <;> exact hx
      rw [this] at hj; cases hj
    | some r =>
      have hlen := (List.getElem?_eq_some_iff.mp hx).1
      have h2 : s2 = (afterAsk s1 .list r order).1.setJob s.jobs.length (afterAsk s1 .list r order).2 := by
        simp only [s2, Gateway.step, stepJob, hx, hd]
      obtain ⟨u', hu', hr⟩ := taskDone_ok hd
      rw [hu] at hu'; cases hu'
      cases r with
      | error e =>
        by_cases he : e = .timeout
        · subst he
          left
          rw [h2] at hj ⊢
          simp only [afterAsk, State.setJob, List.getElem?_set_self hlen, Option.some.injEq, Job.done.injEq, Except.ok.injEq, Ret.nodes.injEq] at hj
          exact ⟨hj.symm, rfl, rfl⟩
        · exfalso
          have h3 := afterAsk_ended s1 (a := .list) trivial (.error e) order
          rw [ended_error (a := .list) trivial he] at h3
          obtain ⟨c, d, n, j, hf⟩ := afterAsk_frame s1 .list (.error e) order
          rw [hf] at h3
          rw [h2, hf] at hj
          simp only [State.setJob, List.getElem?_set_self hlen] at hj
          rw [show j = .done (.error e) from h3] at hj
          cases hj
      | ok m =>
        right
        obtain ⟨b, hb, hdel⟩ := hm m hr
        refine ⟨b, m, hb, hdel, by rw [← hh]; exact hi.done t _ m hu hr, ?_⟩
        cases hn : reportNodes m with
        | none =>
          rw [h2] at hj
          simp only [afterAsk, storeList, hn, State.setJob, List.getElem?_set_self hlen, Option.some.injEq, Job.done.injEq, reduceCtorEq] at hj
        | some l' =>
          rw [h2] at hj ⊢
          simp only [afterAsk, storeList, hn, State.setJob, List.getElem?_set_self hlen, Option.some.injEq, Job.done.injEq, Except.ok.injEq, Ret.nodes.injEq] at hj
          subst hj
          refine ⟨?_, by simp only [afterAsk, storeList, hn, State.setJob], by simp only [afterAsk, storeList, hn, State.setJob]⟩
          unfold reportNodes at hn
          split at hn
          · cases hn; assumption
          · cases hn
  · exact absurd (h ▸ hx) (hnd _)
  · obtain ⟨r, hr⟩ := ended_done (a := .list) trivial (.error .timeout)
    exact absurd ((h.trans hr) ▸ hx) (hnd _)
  · obtain ⟨r, hr⟩ := ended_done (a := .list) trivial (.ok m)
    exact absurd ((h.trans hr) ▸ hx) (hnd _)

/-- Controller 1 and node 5. -/
example : let s := run init [.conn .connect, .nm .getNodeList, .conn (.packet ack), .conn (.resume 0), .job 0 [],
      .conn (.packet (answer ([0x52, 0x02, 1, 0, 1, 0x11] ++ List.replicate 28 0))), .conn (.waiter (.resume 0))]
    s.jobs = [.ask .list 0 0] ∧ (step s (.job 0 [])).jobs = [.done (.ok (.nodes [1, 5]))] ∧ (step s (.job 0 [])).nodes = [(1, none), (5, none)] ∧
    s.nodeId = some 0 ∧ (step s (.job 0 [])).nodeId = some 1 := by
  decide +kernel

/-- The reports on the wire: seven bits of each count ... -/
theorem C87_end_points (seq node res a b : UInt8) : ∃ m, decode [0x52, 0x06, seq, node, res, a, b] = .ok m ∧ m.hid = 0x5206 ∧
    m.num? "nodeID" = some (node.toNat : Int) ∧ m.num? "individualEndPoints" = some ((a.toNat % 128 : Nat) : Int) ∧
    m.num? "aggregatedEndPoints" = some ((b.toNat % 128 : Nat) : Int) := by
  rw [decode_def (d := Reg.NetworkManagementProxy.MultiChannelEndPointReport) (by decide +kernel) _ _ (by decide)]
  simp only [Reg.NetworkManagementProxy.MultiChannelEndPointReport]
  step_u8 seq
  step_u8 node
  step_bits 8 res
  step_bits 1 a
  step_bits 7 a
  step_bits 1 b
  step_bits 7 b
  simp only [parseFields]
  exact ⟨_, rfl, rfl, rfl, by simp [Msg.num?, Msg.attr, Msg.attrs, Dict.get?], by simp [Msg.num?, Msg.attr, Msg.attrs, Dict.get?]⟩

/-- ... and the status of a removal. The mask of failed nodes is C18. -/
theorem C87_status (seq status node : UInt8) : ∃ m, decode [0x34, 0x08, seq, status, node] = .ok m ∧ m.hid = 0x3408 ∧
    getAttr registry m "status" = some (.num (.uint 1) (status.toNat : Int)) ∧ m.num? "nodeID" = some (node.toNat : Int) := by
  rw [decode_def (d := Reg.NetworkManagementInclusion.FailedNodeRemoveStatus) (by decide +kernel) _ _ (by decide)]
  simp only [Reg.NetworkManagementInclusion.FailedNodeRemoveStatus]
  step_u8 seq
  step_u8 status
  step_u8 node
  exact ⟨_, rfl, rfl, rfl, rfl⟩

/-- Node 5 has 2 individual and 1 aggregated end points. -/
example : (run init [.conn .connect, .nm (.getMultiChannelEndPoints 5), .conn (.packet ack), .conn (.resume 0), .job 0 [],
    .conn (.packet (answer [0x52, 0x06, 1, 5, 0, 2, 1])), .conn (.waiter (.resume 0)), .job 0 []]).jobs = [.done (.ok (.num 3))] := by
  decide +kernel

/-! ## C88 -/

/-- The full property: the number of end points returned for a node is zero (no answer) or was reported for that node. -/
def C88_statement : Prop :=
  ∀ (ops ops' : List Op) (n : Nat) (v : Int), let s := run init ops
    let s' := run (step s (.nm (.getMultiChannelEndPoints n))) ops'
    s'.jobs[s.jobs.length]? = some (.done (.ok (.num v))) →
    v = 0 ∨ ∃ b m, .conn (.packet b) ∈ ops' ∧ Delivers b m ∧ m.hid = 0x5206 ∧ m.num? "nodeID" = some (n : Int) ∧ Result (.getMultiChannelEndPoints n) m (.num v)

/-- **C88 is violated.** Nodes 5 and 6 are asked at the same time; the report for node 6 is returned for node 5. -/
theorem C88_violated : ¬ C88_statement := by
  intro h
  rcases h [.conn .connect] [.nm (.getMultiChannelEndPoints 6), .conn (.packet ack), .conn (.resume 0), .job 0 [],
    .conn (.packet (answer [0x52, 0x06, 2, 6, 0, 2, 1])), .conn (.waiter (.resume 0)), .job 0 []] 5 3 (by decide +kernel) with h | ⟨b, m, hb, ⟨p, hp, hm⟩, hh, hn, -⟩
  · cases h
  · have hb : b = ack ∨ b = answer [0x52, 0x06, 2, 6, 0, 2, 1] := by simpa using hb
    have key : ∀ c ∈ [ack, answer [0x52, 0x06, 2, 6, 0, 2, 1]], ∀ p, decode c = .ok p → p.hid = 0x2302 ∧ p.command.all (fun m => m.num? "nodeID" != some 5) := by
      intro c hc p hp
      have h1 : ∀ c ∈ [ack, answer [0x52, 0x06, 2, 6, 0, 2, 1]], (match decode c with
        | .ok p => decide (p.hid = 0x2302) && p.command.all (fun m => m.num? "nodeID" != some 5)
        | .error _ => true) = true := by decide +kernel
      have := h1 c hc
      rw [hp] at this
      simpa using this
    obtain ⟨k1, k2⟩ := key b (by simpa using hb) p hp
    rw [if_pos k1] at hm
    rw [hm] at k2
    simp [hn] at k2

/-- **C88**, what holds: if no report for another node arrives during the call, the number was reported for the node, or is zero. -/
theorem C88_undisturbed_partial (ops ops' : List Op) (n : Nat) (v : Int) :
    let s := run init ops
    let s' := run (step s (.nm (.getMultiChannelEndPoints n))) ops'
    s'.jobs[s.jobs.length]? = some (.done (.ok (.num v))) →
    (∀ b m, .conn (.packet b) ∈ ops' → Delivers b m → m.hid = 0x5206 → m.num? "nodeID" = some (n : Int)) →
    v = 0 ∨ ∃ b m, .conn (.packet b) ∈ ops' ∧ Delivers b m ∧ m.hid = 0x5206 ∧ m.num? "nodeID" = some (n : Int) ∧ Result (.getMultiChannelEndPoints n) m (.num v) := by
  intro s s' hj ho
  rcases C87_result ops ops' (.getMultiChannelEndPoints n) 0x5206 (.num v) rfl hj with h | ⟨b, m, hb, hd, hm, hr⟩
  · left; simpa [Fallback] using h
  · exact .inr ⟨b, m, hb, hd, hm, ho b m hb hd hm, hr⟩

end Props.GatewayCalls

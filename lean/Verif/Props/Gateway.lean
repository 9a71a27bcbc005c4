import Verif.Lemmas.NodeTable
import Verif.Lemmas.NodeLinks
import Verif.Lemmas.Delivery
import Verif.Props.Collections
/-!
# Properties of the gateway (C43–C47)
-/
namespace Props.Gateway
open Spec Model Model.Gateway

/-! ## C43 -/

/-- The number of network management commands issued in a history. `getNodeList()` and `connect()` issue none if the node list is known. -/
def issued : State → List Op → Nat
  | _, [] => 0
  | s, op :: ops => (if issues s op then 1 else 0) + issued (step s op) ops

theorem run_nmSeq : ∀ (ops : List Op) (s : State), (run s ops).nmSeq = s.nmSeq + issued s ops := by
  intro ops
  induction ops with
  | nil => intro s; rfl
  | cons op ops ih =>
    intro s
    rw [run_cons, ih, step_nmSeq]
    simp only [issued]
    omega

/-- The Z/IP header of a command to the gateway. -/
def gatewayHeader (seq : Nat) : ZipHeader := { ackRequest := true, cmd := true, secure := true, seq := seq, src := 0, dst := 0 }

theorem send_ok (s : Conn.State) (cmd : Msg) (cb : Bytes) (hc : compose cmd = .ok cb) (hcon : s.connected = true) :
    (Conn.send s cmd 0 0 3).out = s.out ++ [(gatewayHeader ((s.seq + 1) % 256)).bytes ++ cb] ∧
    sendError (Conn.send s cmd 0 0 3) s.sends.length = if s.ackQueue.mem (((s.seq + 1) % 256 : Nat) : Int) then some .duplicateAck else none := by
  have h := packetFor_bind ((s.seq + 1) % 256) 0 0 (by omega) (by omega) (by omega) cmd
  rw [hc] at h
  have h' : (Conn.packetFor ((s.seq + 1) % 256) 0 0 cmd).bind compose = .ok ((gatewayHeader ((s.seq + 1) % 256)).bytes ++ cb) := h
  simp only [Conn.send, h', Conn.transmitAndWait, Conn.resetKeepAlive, Conn.transmit, hcon, if_true]
  split <;> simp [sendError, *]

theorem send_error (s : Conn.State) (cmd : Msg) (e : PyErr) (hc : compose cmd = .error e) :
    (Conn.send s cmd 0 0 3).out = s.out ∧ sendError (Conn.send s cmd 0 0 3) s.sends.length = some e := by
  have h := packetFor_bind ((s.seq + 1) % 256) 0 0 (by omega) (by omega) (by omega) cmd
  rw [hc] at h
  have h' : (Conn.packetFor ((s.seq + 1) % 256) 0 0 cmd).bind compose = .error e := h
  simp [Conn.send, h', Conn.transmitAndWait, sendError]

theorem afterSend_out (s : State) (c : Conn.State) (k : Nat) : (afterSend s c k).1.conn.out = c.out := by
  unfold afterSend; split <;> rfl

theorem afterSend_job (s : State) (c : Conn.State) (k : Nat) (e : PyErr) (h : sendError c k = some e) : (afterSend s c k).2 = .done (.error e) := by
  unfold afterSend; rw [h]

theorem afterAskSend_out (s : State) (a : Ask) (t : Nat) (c : Conn.State) (k : Nat) : (afterAskSend s a t c k).1.conn.out = c.out := by
  unfold afterAskSend; split <;> rfl

theorem afterAskSend_job (s : State) (a : Ask) (t : Nat) (c : Conn.State) (k : Nat) (e : PyErr) (h : sendError c k = some e) :
    (afterAskSend s a t c k).2 = .done (.error e) := by
  unfold afterAskSend; rw [h]

/-- The full property: in every history on a connected socket, every network management call (with arguments that can be sent) that cannot be answered from the cached
node list transmits its command. -/
def C43_statement : Prop :=
  ∀ (ops : List Op) (c : Nm), let s := run init ops
    s.conn.connected = true → NmFits c → ¬ (c = .getNodeList ∧ s.nodes ≠ []) →
    ∃ q, (step s (.nm c)).conn.out = s.conn.out ++ [(gatewayHeader ((s.conn.seq + 1) % 256)).bytes ++ nmBytes q c]

/-- **C43**, what holds: the first 255 commands are transmitted, numbered 1 to 255. -/
theorem C43_first_255_partial (ops : List Op) (c : Nm) :
    let s := run init ops
    s.conn.connected = true → NmFits c → ¬ (c = .getNodeList ∧ s.nodes ≠ []) → issued init ops < 255 →
    (step s (.nm c)).conn.out = s.conn.out ++ [(gatewayHeader ((s.conn.seq + 1) % 256)).bytes ++ nmBytes (issued init ops + 1) c] := by
  intro s hcon hf hn hi
  have hq : s.nmSeq = issued init ops := (run_nmSeq ops init).trans (Nat.zero_add _)
  obtain ⟨m, h1, h2⟩ := command_compose c hf (issued init ops + 1) (by omega)
  simp only [Gateway.step, startNm, if_neg hn, hq, h1]
  cases c.waitsFor with
  | none =>
    simp only [startSend, State.addJob, afterSend_out]
    exact (send_ok _ _ _ h2 hcon).1
  | some p =>
    simp only [startAsk, State.addJob, afterAskSend_out]
    exact (send_ok { s.conn with w := Waiter.step s.conn.w (.call .adapter p.1 p.2) } _ _ h2 hcon).1

/-- **C43**, what goes wrong: once 255 commands have been issued, every further one raises OverflowError and transmits nothing. -/
theorem C43_stuck_partial (ops : List Op) (c : Nm) :
    let s := run init ops
    NmFits c → ¬ (c = .getNodeList ∧ s.nodes ≠ []) → 255 ≤ issued init ops →
    (step s (.nm c)).jobs = s.jobs ++ [.done (.error .overflow)] ∧ (step s (.nm c)).conn.out = s.conn.out := by
  intro s hf hn hi
  have hq : s.nmSeq = issued init ops := (run_nmSeq ops init).trans (Nat.zero_add _)
  obtain ⟨m, h1⟩ := command_ok c hf (issued init ops + 1)
  have h2 := command_overflow c _ (by omega) m h1
  obtain ⟨k, j, hfr⟩ := startNm_frame s c
  have hj : (step s (.nm c)).jobs = s.jobs ++ [(startNm s c).2] := by
    simp only [Gateway.step, State.addJob, hfr]
  rw [hj]
  simp only [Gateway.step, startNm, if_neg hn, hq, h1]
  cases c.waitsFor with
  | none =>
    simp only [startSend, State.addJob, afterSend_out]
    obtain ⟨e1, e2⟩ := send_error s.conn m _ h2
    exact ⟨by rw [afterSend_job _ _ _ _ e2], e1⟩
  | some p =>
    simp only [startAsk, State.addJob, afterAskSend_out]
    obtain ⟨e1, e2⟩ := send_error { s.conn with w := Waiter.step s.conn.w (.call .adapter p.1 p.2) } m _ h2
    exact ⟨by rw [afterAskSend_job _ _ _ _ _ _ e2], e1⟩

theorem issued_removeNode : ∀ (n : Nat) (s : State), issued s (List.replicate n (.nm .removeNode)) = n := by
  intro n
  induction n with
  | zero => intro s; rfl
  | succ n ih =>
    intro s
    simp only [List.replicate_succ, issued, ih, issues]
    simp
    omega

theorem send_connected (s : Conn.State) (cmd : Msg) : (Conn.send s cmd 0 0 3).connected = s.connected := by
  generalize hp : (Conn.packetFor ((s.seq + 1) % 256) 0 0 cmd).bind compose = pkt
  have hs : Conn.send s cmd 0 0 3 = Conn.transmitAndWait { s with seq := (s.seq + 1) % 256 } pkt 3 := by rw [← hp]; rfl
  rw [hs]
  cases pkt with
  | error e => rfl
  | ok b =>
    simp only [Conn.transmitAndWait, Conn.resetKeepAlive, Conn.transmit]
    repeat' split
    all_goals first | rfl | simp_all

theorem removeNode_connected (s : State) (h : s.conn.connected = true) : (step s (.nm .removeNode)).conn.connected = true := by
  obtain ⟨m, h1⟩ := command_ok .removeNode trivial (s.nmSeq + 1)
  have hw : Nm.waitsFor .removeNode = none := rfl
  have hn : ¬ (Nm.removeNode = .getNodeList ∧ s.nodes ≠ []) := by simp
  have ha : ∀ c k, (afterSend { s with nmSeq := s.nmSeq + 1 } c k).1.conn.connected = c.connected := by
    intro c k; unfold afterSend; split <;> rfl
  simp only [Gateway.step, startNm, if_neg hn, h1, hw, startSend, State.addJob, ha, send_connected, h]

theorem removeNodes_connected : ∀ (n : Nat) (s : State), s.conn.connected = true → (run s (List.replicate n (.nm .removeNode))).conn.connected = true := by
  intro n
  induction n with
  | zero => intro s h; exact h
  | succ n ih => intro s h; rw [List.replicate_succ, run_cons]; exact ih _ (removeNode_connected s h)

/-- The first commands: an inclusion is started, a node is asked about. -/
example : let s := run init [.conn .connect, .nm (.addNode 0x60)]
    s.conn.connected = true ∧ issued init [.conn .connect, .nm (.addNode 0x60)] = 1 ∧ NmFits (.getNodeInfo 5) ∧
    (step s (.nm (.getNodeInfo 5))).conn.out = [[0x23, 0x02, 0x80, 0x50, 1, 0, 0, 0x34, 0x01, 1, 0, 0x07, 0x60], [0x23, 0x02, 0x80, 0x50, 2, 0, 0, 0x52, 0x03, 2, 0x0F, 5]] :=
  ⟨by decide +kernel, by decide +kernel, by simp [NmFits, InByte], by decide +kernel⟩

/-- **C43** fails: the 256th command is not transmitted. -/
theorem C43_violated : ¬ C43_statement := by
  intro h
  let ops : List Op := .conn .connect :: List.replicate 255 (.nm .removeNode)
  have hcon : (run init ops).conn.connected = true := by
    rw [run_cons]; exact removeNodes_connected _ _ rfl
  have hi : 255 ≤ issued init ops := by
    have := issued_removeNode 255 (step init (.conn .connect))
    simp only [ops, issued, this]; omega
  obtain ⟨q, hq⟩ := h ops .removeNode hcon trivial (by simp)
  have h2 := (C43_stuck_partial ops .removeNode trivial (by simp) hi).2
  rw [h2] at hq
  have := congrArg List.length hq
  simp at this

/-! ## C44 -/

/-- A node list report as it arrives: the Z/IP header, the sequence number, status and controller id, and the mask of 28 bytes. -/
def nodeListPacket (h : ZipHeader) (seq status ctl : UInt8) (mask : Bytes) : Bytes := h.bytes ++ 0x52 :: 0x02 :: seq :: status :: ctl :: mask

theorem nodeListPacket_decode (h : ZipHeader) (hf : h.Fits) (hx : h.ext = false) (seq status ctl : UInt8) (mask : Bytes) (hm : mask.length = 28) :
    ∃ p c l, decode (nodeListPacket h seq status ctl mask) = .ok p ∧ p.command = some c ∧ c.hid = 0x5202 ∧ reportNodes c = some l ∧ l.Nodup ∧
      ∀ n, n ∈ l ↔ MarkedIn mask n := by
  obtain ⟨m, l, e, h1, -, -, -, h2, h3, h4⟩ := C18_node_list seq status ctl mask [] hm
  rw [List.append_nil] at e
  have hz := zip_decode h.flags0 h.flags1 (UInt8.ofNat h.seq) (UInt8.ofNat h.src) (UInt8.ofNat h.dst) (0x52 :: 0x02 :: seq :: status :: ctl :: mask)
  have hlt : h.flags1.toNat < 128 := (flags1_ext h).mpr hx
  simp only [zipBody, hlt, true_or, if_true, bind, Except.bind, e, reduceCtorEq, if_false] at hz
  refine ⟨_, m, l, hz, rfl, h1, ?_, h3, h4⟩
  unfold reportNodes
  rw [h2]

/-- No coroutine that changes the node table is running. -/
def TableIdle (s : State) : Prop := ∀ (k : Nat) (j : Job), s.jobs[k]? = some j → tableJob j = false

/-- **C44.** Whenever a node list report arrives and no other change of the table is in progress or begins, then, once its handler has ended without an exception (for every schedule
and every other activity on the gateway): the table has exactly the nodes of the report, the nodes known before have kept their addresses, the listeners have been told once,
and `getNodeList()` returns exactly the nodes of the report. -/
theorem C44_table_is_report (s0 : State) (h : ZipHeader) (hf : h.Fits) (hx : h.ext = false) (seq status ctl : UInt8) (mask : Bytes) (hm : mask.length = 28)
    (sender : Bytes) (order : List Nat) (ops : List Op) (r : Ret) (hidle : TableIdle s0) (hops : ∀ op ∈ ops, touchesTable op = false) :
    let s := run (step s0 (.unsolicited (nodeListPacket h seq status ctl mask) sender order)) ops
    s.jobs[s0.jobs.length]? = some (.done (.ok r)) →
    (∀ n, n ∈ s.nodes.keys ↔ MarkedIn mask n) ∧
    (∀ n v, MarkedIn mask n → s0.nodes.get? n = some v → s.nodes.get? n = some v) ∧
    s.listUpdated = s0.listUpdated + 1 ∧
    ((∃ n, MarkedIn mask n) → ∃ l, (step s (.nm .getNodeList)).jobs = s.jobs ++ [.done (.ok (.nodes l))] ∧ (∀ n, n ∈ l ↔ MarkedIn mask n) ∧
      (s0.nodes.keys.Nodup → l.Nodup)) := by
  intro s hdone
  obtain ⟨p, c, l, e1, e2, e3, e4, hnd, hl⟩ := nodeListPacket_decode h hf hx seq status ctl mask hm
  have hst := handler_started s0 _ sender order p c l e1 e2 e3 e4
  simp only at hst
  have hh := reportLoop_handler s0 l (iter l order) _ (fun n hn => (mem_iter l order n).mp hn) (handling_start s0 l order)
  obtain ⟨cc, kk, j, hfr⟩ := reportLoop_frame (iter l order) { s0 with nodes := s0.nodes.filter (fun p => p.1 ∈ l) }
  have hjobs : (step s0 (.unsolicited (nodeListPacket h seq status ctl mask) sender order)).jobs = s0.jobs ++ [j] := by
    rw [hst, hfr]; rfl
  obtain ⟨y, hy, hH⟩ := run_handler s0 l s0.listUpdated s0.jobs.length ops
    (step s0 (.unsolicited (nodeListPacket h seq status ctl mask) sender order)) j (by rw [hjobs]; simp)
    (by rw [hst]; rw [hfr] at hh ⊢; exact hh.congr rfl rfl)
    (fun k x hk hx' => by
      rw [hjobs] at hx'
      by_cases hlt : k < s0.jobs.length
      · rw [List.getElem?_append_left hlt] at hx'; exact hidle k x hx'
      · rw [List.getElem?_eq_none (by simp; omega)] at hx'; cases hx')
    hops
  rw [show (run (step s0 (.unsolicited (nodeListPacket h seq status ctl mask) sender order)) ops).jobs[s0.jobs.length]? = some (.done (.ok r)) from hdone] at hy
  cases hy
  obtain ⟨-, hg, hu⟩ := hH.ok r rfl
  have hkeys : ∀ n, n ∈ s.nodes.keys ↔ MarkedIn mask n := by
    intro n
    rw [← hl]
    exact ⟨hg.sub n, fun hn => (hg.all n hn).resolve_right (by simp)⟩
  refine ⟨hkeys, fun n v hn hv => hg.keep n v ((hl n).mpr hn) hv, hu, fun ⟨n, hn⟩ => ⟨s.nodes.keys, ?_, hkeys, hg.nodup⟩⟩
  have hne : s.nodes ≠ [] := by
    intro h0
    have := (hkeys n).mpr hn
    rw [h0] at this
    simp [Dict.keys] at this
  simp only [Gateway.step, startNm, hne, ne_eq, not_false_eq_true, and_self, if_true, State.addJob]

theorem solicitation_bytes : ∀ n < 256, solicitation n = .ok [0x58, 0x04, 0, UInt8.ofNat n] := by decide +kernel

theorem reportLoop_progress : ∀ (todo : List Nat) (s : State), (∀ n ∈ todo, n < 256) →
    (reportLoop s todo).2 = .done (.ok .unit) ∨ ∃ cur todo' t, (reportLoop s todo).2 = .report cur todo' t ∧ todo'.length < todo.length := by
  intro todo
  induction todo with
  | nil => intro s _; exact .inl rfl
  | cons n todo ih =>
    intro s hn
    simp only [reportLoop]
    split
    · rcases ih s (fun m hm => hn m (.tail _ hm)) with h | ⟨cur, todo', t, h1, h2⟩
      · exact .inl h
      · exact .inr ⟨cur, todo', t, h1, by simp; omega⟩
    · simp only [ipOfNode, solicitation_bytes n (hn n (.head _)), lookup]
      exact .inr ⟨n, todo, _, rfl, by simp⟩

/-- **C44.** The handler of a report ends: each time it continues with the answer of a lookup fewer nodes are left to look up, and it raises nothing. -/
theorem C44_progress (s : State) (i cur : Nat) (todo : List Nat) (t : Nat) (m : Msg) (order : List Nat) (hj : s.jobs[i]? = some (.report cur todo t))
    (ht : taskDone s t = some (.ok m)) (hn : ∀ n ∈ todo, n < 256) :
    (step s (.job i order)).jobs[i]? = some (.done (.ok .unit)) ∨
    ∃ cur' todo' t', (step s (.job i order)).jobs[i]? = some (.report cur' todo' t') ∧ todo'.length < todo.length := by
  have hi : i < s.jobs.length := (List.getElem?_eq_some_iff.mp hj).1
  have hp := reportLoop_progress todo { s with nodes := s.nodes.set cur (advertised m) } hn
  obtain ⟨c, k, j, hfr⟩ := reportLoop_frame todo { s with nodes := s.nodes.set cur (advertised m) }
  rw [hfr] at hp
  have hst : (step s (.job i order)).jobs[i]? = some j := by
    simp only [Gateway.step, stepJob, hj, ht, hfr, State.setJob]
    exact List.getElem?_set_self hi
  rw [hst]
  rcases hp with h | ⟨cur', todo', t', h1, h2⟩
  · exact .inl (congrArg some h)
  · exact .inr ⟨cur', todo', t', congrArg some h1, h2⟩

/-- An address ending in `b`. -/
def addr (b : UInt8) : Bytes := 0xFD :: List.replicate 14 0 ++ [b]

/-- The advertisement of the node `n` with an address. -/
def advertisement (n : UInt8) (a : Bytes) : Bytes := 0x58 :: 0x01 :: 0 :: n :: (a ++ [1, 2, 3, 4])

/-- The operations that answer a lookup. -/
def answered (t : Nat) (i : Nat) (n : UInt8) (a : Bytes) : List Op := [.conn (.packet (advertisement n a)), .conn (.waiter (.resume t)), .job i []]

/-- A mask with the nodes 1 to 8 given by `b`. -/
def mask (b : UInt8) : Bytes := b :: List.replicate 27 0

/-- The header used in the examples. -/
def plain : ZipHeader := { cmd := true, seq := 1, src := 0, dst := 0 }

/-- Nodes 1 and 2 are known, then a report lists 2 and 3: 1 is removed, 2 keeps its address, 3 is looked up. -/
example : (run init ([.conn .connect, .unsolicited (nodeListPacket plain 1 0 1 (mask 3)) (addr 9) []] ++ answered 0 0 1 (addr 1) ++ answered 1 0 2 (addr 2) ++
    [.unsolicited (nodeListPacket plain 2 0 1 (mask 6)) (addr 9) [3, 2]] ++ answered 2 1 3 (addr 3))).nodes = [(2, some (addr 2)), (3, some (addr 3))] := by
  decide +kernel

/-! ## C45 -/

theorem find_first {nodes : Dict Nat (Option Bytes)} {sender : Bytes} {pre post : Dict Nat (Option Bytes)} {n : Nat} (hn : nodes = pre ++ (n, some sender) :: post)
    (hp : ∀ e ∈ pre, e.2 ≠ some sender) : nodes.find? (fun e => e.2 = some sender) = some (n, some sender) := by
  rw [hn, List.find?_append, List.find?_eq_none.mpr (by simpa using hp)]
  simp

/-- What the listeners are told and what is sent back for a packet from a known node. -/
def delivered (s : State) (h : ZipHeader) (n : Nat) (command : Option Msg) (flags : Option Val) (sender : Bytes) : State :=
  { s with
    told := s.told ++ [⟨n, some h.src, command, flags⟩]
    acks := s.acks ++ if h.ackRequest then [((responseHeader true false false false h.secure h.seq h.src h.dst).bytes, sender)] else [] }

theorem unsolicited_known (s : State) (h : ZipHeader) (hf : h.Fits) (rest : Bytes) (p : Msg) (hd : decode (h.bytes ++ rest) = .ok p) (hdesc : Describes h p)
    (hc : p.command.map Msg.hid ≠ some 0x5202) (sender : Bytes) (order : List Nat) :
    (∀ n v, s.nodes.find? (fun e => e.2 = some sender) = some (n, v) →
      step s (.unsolicited (h.bytes ++ rest) sender order) = delivered s h n p.command (getAttr registry p "headerExtension") sender) ∧
    (s.nodes.find? (fun e => e.2 = some sender) = none → step s (.unsolicited (h.bytes ++ rest) sender order) = s) := by
  have hfil : p.command.filter (fun c => decide (c.hid = 0x5202)) = none := by
    cases hpc : p.command with
    | none => rfl
    | some c => rw [hpc] at hc; simp at hc; simp [Option.filter, hc]
  obtain ⟨d1, d2, -, -, -, -, -, -, -, -, d10, d11, d12, d13⟩ := hdesc
  obtain ⟨g1, g2, g3⟩ := hf
  obtain ⟨r, m', e1, e2, -, -, -⟩ := C13_decoded h.flags0 h.flags1 (UInt8.ofNat h.seq) (UInt8.ofNat h.src) (UInt8.ofNat h.dst) rest p hd true false false false
  obtain ⟨b1, b2, b3, b4⟩ := flags1_bits h
  rw [toNat_length g1, toNat_length (by omega), toNat_length (by omega), Nat.mod_eq_of_lt g2, Nat.mod_eq_of_lt g3] at e2
  have hsec : (h.flags1.toNat / 16 % 2 == 1) = h.secure := by
    rw [b4]; cases h.secure <;> rfl
  rw [hsec] at e2
  have hresp : (zipResponse p true).bind compose = .ok (responseHeader true false false false h.secure h.seq h.src h.dst).bytes := by
    rw [e1]; exact e2
  constructor
  · intro n v hn
    simp only [Gateway.step, onUnsolicitedMessage, hd, hfil, hn, d2, d12, d1, if_true, delivered]
    cases h.ackRequest with
    | true => simp only [if_true, hresp]
    | false => simp
  · intro hn
    simp only [Gateway.step, onUnsolicitedMessage, hd, hfil, hn]

/-- **C45.** A packet with a command (other than a node list report) and without header extension, from an address at which a node is known: the listeners are told, under the
id of the first such node in the table, the command with the packet's source end point, and if and only if the packet asked for it an acknowledgement is sent to the sender,
with the packet's sequence number and the end points swapped. Nothing else changes. -/
theorem C45_known_sender (s : State) (h : ZipHeader) (hf : h.Fits) (hx : h.ext = false) (cb : Bytes) (c : Msg) (hne : cb ≠ []) (hc : decode cb = .ok c) (hid : c.hid ≠ 0x5202)
    (sender : Bytes) (order : List Nat) (n : Nat) (pre post : Dict Nat (Option Bytes)) (hn : s.nodes = pre ++ (n, some sender) :: post)
    (hfirst : ∀ e ∈ pre, e.2 ≠ some sender) :
    step s (.unsolicited (h.bytes ++ cb) sender order) = delivered s h n (some c) (some (.hdr [])) sender := by
  have hz := zip_decode h.flags0 h.flags1 (UInt8.ofNat h.seq) (UInt8.ofNat h.src) (UInt8.ofNat h.dst) cb
  have hb : zipBody h.flags1 cb = .ok (some [], cb) := by
    cases cb with
    | nil => exact absurd rfl hne
    | cons len tl => simp [zipBody, (flags1_ext h).mpr hx]
  rw [hb] at hz
  simp only [bind, Except.bind, hc, if_neg hne] at hz
  have := (unsolicited_known s h hf cb _ hz (describes_attrs h hf _ rfl (some []) rfl) (by simpa [Msg.command] using hid) sender order).1 n _ (find_first hn hfirst)
  rw [this]
  rfl

/-- **C45.** The same for a packet with a header extension; the listeners also get its options. -/
theorem C45_known_sender_extension (s : State) (h : ZipHeader) (hf : h.Fits) (hx : h.ext = true) (os : List (Bool × HdrOption)) (ho : ∀ o ∈ os, o.2.WellFormed)
    (hl : (optionsWire os).length < 255) (cb : Bytes) (c : Msg) (hne : cb ≠ []) (hc : decode cb = .ok c) (hid : c.hid ≠ 0x5202)
    (sender : Bytes) (order : List Nat) (n : Nat) (pre post : Dict Nat (Option Bytes)) (hn : s.nodes = pre ++ (n, some sender) :: post)
    (hfirst : ∀ e ∈ pre, e.2 ≠ some sender) :
    ∃ dict, expectedDelay dict = .ok (announcedDelay os) ∧
      step s (.unsolicited (h.bytes ++ UInt8.ofNat ((optionsWire os).length + 1) :: (optionsWire os ++ cb)) sender order) =
        delivered s h n (some c) (some (.hdr dict)) sender := by
  obtain ⟨p, dict, e1, e2, e3, e4, -, e5, -⟩ := zip_extension h hf hx os ho hl cb c hc
  have e5 := e5 hne
  refine ⟨dict, e4, ?_⟩
  have := (unsolicited_known s h hf _ p e1 e2 (by rw [e5]; simpa using hid) sender order).1 n _ (find_first hn hfirst)
  rw [this, e5]
  have hg : getAttr registry p "headerExtension" = some (.hdr dict) := by
    simp only [getAttr, Msg.attr] at e3 ⊢
    rw [e3]
  rw [hg]

/-- **C45.** Whatever a datagram from an address at which no node is known contains, unless it is a node list report it changes nothing: it is neither acknowledged nor delivered. -/
theorem C45_unknown_sender (s : State) (pkt sender : Bytes) (order : List Nat) (hc : ∀ p, decode pkt = .ok p → p.command.map Msg.hid ≠ some 0x5202)
    (hn : ∀ e ∈ s.nodes, e.2 ≠ some sender) : step s (.unsolicited pkt sender order) = s := by
  have hfind : s.nodes.find? (fun e => e.2 = some sender) = none := List.find?_eq_none.mpr (by simpa using hn)
  simp only [Gateway.step, onUnsolicitedMessage]
  cases hd : decode pkt with
  | error e => rfl
  | ok p =>
    have hfil : p.command.filter (fun c => decide (c.hid = 0x5202)) = none := by
      have hc := hc p hd
      cases hpc : p.command with
      | none => rfl
      | some c => rw [hpc] at hc; simp at hc; simp [Option.filter, hc]
    simp only [hfil, hfind]

/-- **C45.** A packet that cannot be decoded changes nothing. -/
theorem C45_undecodable (s : State) (pkt sender : Bytes) (order : List Nat) (e : PyErr) (hd : decode pkt = .error e) :
    step s (.unsolicited pkt sender order) = s := by
  simp only [Gateway.step, onUnsolicitedMessage, hd]

/-- **C45.** The handler returns True exactly if it has told the listeners or started to handle a node list report; otherwise, and if it raises, nothing has changed. -/
theorem C45_returns (s : State) (pkt sender : Bytes) (order : List Nat) :
    let r := onUnsolicitedMessage s pkt sender order
    (r.2 = .ok true ↔ r.1.told.length = s.told.length + 1 ∨ r.1.jobs.length = s.jobs.length + 1) ∧ (r.2 ≠ .ok true → r.1 = s) := by
  simp only [onUnsolicitedMessage]
  split
  · simp
  · split
    · rename_i m _
      obtain ⟨c, k, n, j, h⟩ := handle_frame s m order
      rw [h]
      simp [State.addJob]
    · split
      · simp
      · split
        · split
          · split <;> simp
          · simp
        · simp

/-- A switch report of node 5, which asks for an acknowledgement. -/
example :
    let s := run { init with nodes := [(3, some (addr 7)), (5, some (addr 8)), (6, some (addr 8))] }
      [.unsolicited [0x23, 0x02, 0x80, 0x50, 0x11, 0x02, 0x00, 0x25, 0x03, 0xFF] (addr 8) []]
    s.told = [⟨5, some 2, some (.known 0x2503 [("value", .num (.uint 1) 255)]), some (.hdr [])⟩] ∧
    s.acks = [([0x23, 0x02, 0x40, 0x10, 0x11, 0x00, 0x02], addr 8)] := by
  decide +kernel

/-! ## C46 -/

theorem link_told (s : State) (k n v : Nat) (l : Link) (hl : s.links[k]? = some l) (hf : s.conns.find? (fun p => p.2 = k) = some (n, v)) (o : Conn.Op) :
    (step s (.link k o)).told = s.told ++ ((Conn.step l.conn o).heard.drop l.conn.heard.length).map (toldOf n) := by
  simp only [Gateway.step, hl]
  have h := told_found k n v ((Conn.step l.conn o).heard.drop l.conn.heard.length)
    { s with links := s.links.set k ({ l with conn := Conn.step l.conn o } : Link) } hf
  rw [h]

/-- **C46.** In every history and whatever arrives on a connection: all that the listeners are told is told under the node id the connection was opened for. -/
theorem C46_attributed (ops : List Op) (k : Nat) (o : Conn.Op) :
    let s := run init ops
    ∃ new, (step s (.link k o)).told = s.told ++ new ∧ ∀ t ∈ new, ∃ l, s.links[k]? = some l ∧ t.node = l.node := by
  intro s
  have hinv : LinkInv s := linkInv_init.run ops
  simp only [Gateway.step]
  split
  · exact ⟨[], by simp, by simp⟩
  · rename_i l hl
    have hc : ({ s with links := s.links.set k ({ l with conn := Conn.step l.conn o } : Link) } : State).conns = s.conns := rfl
    cases hf : s.conns.find? (fun p => p.2 = k) with
    | none => rw [told_none k _ _ (by rw [hc]; exact hf)]; exact ⟨[], by simp, by simp⟩
    | some p =>
      obtain ⟨n, v⟩ := p
      rw [told_found k n v _ _ (by rw [hc]; exact hf)]
      refine ⟨_, rfl, fun t ht => ⟨l, hl, ?_⟩⟩
      obtain ⟨m, -, rfl⟩ := List.mem_map.mp ht
      have hv : v = k := by have := List.find?_some hf; simpa using this
      have := hinv.conns n v (List.mem_of_find?_eq_some hf)
      rw [hv, List.getElem?_map, hl] at this
      simp at this
      exact this.symm

/-- **C46.** In every history: the connection returned by `connectToNode(n)` is one opened for `n`. -/
theorem C46_returned (ops ops' : List Op) (n k : Nat) :
    let s := run init ops
    let s' := run (step s (.connectToNode n)) ops'
    s'.jobs[s.jobs.length]? = some (.done (.ok (.conn k))) → ∃ l, s'.links[k]? = some l ∧ l.node = n := by
  intro s s' h
  have hinv : LinkInv s := linkInv_init.run ops
  obtain ⟨x, hx, h1⟩ := (connectCall_start s hinv n).run ops' (hinv.step _)
  rw [show (Gateway.run (Gateway.step s (.connectToNode n)) ops').jobs[s.jobs.length]? = _ from h] at hx
  cases hx
  rcases h1 with h1 | ⟨e, h1⟩ | ⟨k', h1, h2⟩
  · cases h1
  · cases h1
  · cases h1
    rw [List.getElem?_map] at h2
    cases hl : s'.links[k]? with
    | none => rw [hl] at h2; cases h2
    | some l => rw [hl] at h2; exact ⟨l, rfl, by simpa using h2⟩

/-- **C46.** If no two calls for the same node overlap, `connectToNode(n)` always returns the same connection. -/
theorem C46_same_connection (ops1 ops2 ops3 : List Op) (n k k' : Nat) (hno : NoOverlap init (ops1 ++ .connectToNode n :: (ops2 ++ .connectToNode n :: ops3))) :
    let s1 := run init ops1
    let s2 := run (step s1 (.connectToNode n)) ops2
    let s3 := run (step s2 (.connectToNode n)) ops3
    s3.jobs[s1.jobs.length]? = some (.done (.ok (.conn k))) → s3.jobs[s2.jobs.length]? = some (.done (.ok (.conn k'))) → k = k' := by
  intro s1 s2 s3 h1 h2
  obtain ⟨n1, n2⟩ := (noOverlap_append _ _ _).mp hno
  have i1 : Single s1 := single_init.run ops1 n1
  have i2 : Single (step s1 (.connectToNode n)) := i1.step _ n2.1
  obtain ⟨n3, n4⟩ := (noOverlap_append _ _ _).mp n2.2
  have i3 : Single s2 := i2.run ops2 n3
  have i4 : Single (step s2 (.connectToNode n)) := i3.step _ n4.1
  have c1 : ConnectCall1 s3 n s1.jobs.length := (((connectCall1_start s1 n).run ops2 i2 n3).step i3 (.connectToNode n)).run ops3 i4 n4.2
  have c2 : ConnectCall1 s3 n s2.jobs.length := (connectCall1_start s2 n).run ops3 i4 n4.2
  have get : ∀ i k, ConnectCall1 s3 n i → s3.jobs[i]? = some (.done (.ok (.conn k))) → s3.conns.get? n = some k := by
    rintro i k ⟨x, hx, hc⟩ h
    rw [h] at hx
    cases hx
    rcases hc with hc | ⟨e, hc⟩ | ⟨k', hc, hk⟩ <;> cases hc
    exact hk
  have g1 := get _ _ c1 h1
  have g2 := get _ _ c2 h2
  rw [g1] at g2
  exact Option.some.inj g2

/-- **C46.** If no two calls for the same node overlap, every message received on the connection returned by `connectToNode(n)` is told to the listeners under `n`. -/
theorem C46_delivered (ops1 ops2 : List Op) (n k : Nat) (hno : NoOverlap init (ops1 ++ .connectToNode n :: ops2)) :
    let s1 := run init ops1
    let s := run (step s1 (.connectToNode n)) ops2
    s.jobs[s1.jobs.length]? = some (.done (.ok (.conn k))) →
    ∃ l, s.links[k]? = some l ∧ ∀ o, (step s (.link k o)).told = s.told ++ ((Conn.step l.conn o).heard.drop l.conn.heard.length).map (toldOf n) := by
  intro s1 s h
  obtain ⟨n1, n2⟩ := (noOverlap_append _ _ _).mp hno
  have i1 : Single s1 := single_init.run ops1 n1
  have i2 : Single (step s1 (.connectToNode n)) := i1.step _ n2.1
  have hinv : LinkInv s := ((linkInv_init.run ops1).step _).run ops2
  obtain ⟨x, hx, hc⟩ := (connectCall1_start s1 n).run ops2 i2 n2.2
  obtain ⟨l, hl, hln⟩ := C46_returned ops1 ops2 n k h
  refine ⟨l, hl, fun o => ?_⟩
  rw [show (Gateway.run (Gateway.step s1 (.connectToNode n)) ops2).jobs[s1.jobs.length]? = _ from h] at hx
  cases hx
  rcases hc with hc | ⟨e, hc⟩ | ⟨k', hc, hk⟩ <;> cases hc
  have hmem : (n, k) ∈ s.conns := Dict.mem_of_get? hk
  cases hf : s.conns.find? (fun p => p.2 = k) with
  | none =>
    have := List.find?_eq_none.mp hf _ hmem
    simp at this
  | some p =>
    obtain ⟨m, v⟩ := p
    have hv : v = k := by have := List.find?_some hf; simpa using this
    have e1 := hinv.conns m v (List.mem_of_find?_eq_some hf)
    have e2 := hinv.conns n k hmem
    rw [hv, e2] at e1
    cases e1
    exact link_told s k n v l hl hf o

/-- **C46.** What is told under the node id is the command in the packet with its source end point (seven bits), and no flags; a message that is not in a packet (an advertisement) is
told as it is, for end point 0. -/
theorem C46_told (n : Nat) (b : Bytes) (p : Msg) (hd : decode b = .ok p) :
    (∀ f0 f1 seq src dst r, b = 0x23 :: 0x02 :: f0 :: f1 :: seq :: src :: dst :: r →
      toldOf n p = ⟨n, some ((src.toNat % 128 : Nat) : Int), p.command, some (.num .pyint 0)⟩) ∧
    (p.hid ≠ 0x2302 → toldOf n p = ⟨n, some 0, some p, some (.num .pyint 0)⟩) := by
  refine ⟨fun f0 f1 seq src dst r e => ?_, fun hn => by simp only [toldOf, if_neg hn]⟩
  rw [e, zip_decode] at hd
  cases hb : zipBody f1 r with
  | error x => rw [hb] at hd; cases hd
  | ok v =>
    obtain ⟨o, cb⟩ := v
    rw [hb] at hd
    simp only [bind, Except.bind] at hd
    have key : ∀ c : Option Msg, (match c with | some c => Msg.wrap 0x2302 (zipAll f0 f1 seq src dst o) c | none => .known 0x2302 (zipAll f0 f1 seq src dst o)) = p →
        toldOf n p = ⟨n, some ((src.toNat % 128 : Nat) : Int), p.command, some (.num .pyint 0)⟩ := by
      rintro c rfl
      cases c <;> cases o <;> simp [toldOf, Msg.hid, Msg.num?, Msg.attr, Msg.attrs, zipAll, zipAttrs, Dict.get?, Msg.command]
    split at hd
    · cases hd; exact key none rfl
    · cases hm : decode cb with
      | error x => rw [hm] at hd; cases hd
      | ok c => rw [hm] at hd; cases hd; exact key (some c) rfl

instance instDecNoOverlap : ∀ (ops : List Op) (s : State), Decidable (NoOverlap s ops)
  | [], _ => .isTrue trivial
  | op :: ops, s =>
    have := instDecNoOverlap ops (step s op)
    have : Decidable (∀ n, op = .connectToNode n → ∀ (i : Nat) (j : Job), s.jobs[i]? = some j → connJob j ≠ some n) :=
      decidable_of_iff (∀ j ∈ s.jobs, ∀ n ∈ connJob j, op ≠ .connectToNode n)
        ⟨fun h n e i j hj hn => h j (List.mem_of_getElem? hj) n hn e,
         fun h j hj n hn e => by obtain ⟨i, hi⟩ := List.mem_iff_getElem?.mp hj; exact h n e i j hi hn⟩
    inferInstanceAs (Decidable (_ ∧ _))

/-- Node 5 is connected to, then a report arrives on its connection; the calls do not overlap. -/
example :
    let ops1 : List Op := [.conn .connect]
    let ops2 : List Op := answered 0 0 5 (addr 5) ++ [.opened 0 true, .connectToNode 5, .connectToNode 6]
    let s := run (step (run init ops1) (.connectToNode 5)) ops2
    NoOverlap init (ops1 ++ .connectToNode 5 :: ops2) ∧ s.jobs[(run init ops1).jobs.length]? = some (.done (.ok (.conn 0))) ∧
    (step s (.link 0 (.packet [0x23, 0x02, 0x00, 0x50, 0x11, 0x02, 0x00, 0x25, 0x03, 0xFF]))).told =
      [⟨5, some 2, some (.known 0x2503 [("value", .num (.uint 1) 255)]), some (.num .pyint 0)⟩] := by
  decide +kernel

/-! ## C47 -/

/-- The packet `b` advertises the address `a` of node `n`. -/
def Advertises (b : Bytes) (n : Int) (a : Bytes) : Prop := ∃ m, Delivers b m ∧ m.hid = 0x5801 ∧ m.num? "nodeId" = some n ∧ advertised m = some a

theorem advertisement_decode (f n : UInt8) (a h : Bytes) (ha : a.length = 16) (hh : h.length = 4) :
   ∃ v, decode (0x58 :: 0x01 :: f :: n :: (a ++ h)) = .ok (.known 0x5801 v) ∧ Dict.get? v "nodeId" = some (.num (.uint 1) n.toNat) ∧ Dict.get? v "ipv6" = some (.ipv6 a) := by
  rw [decode_def (d := Reg.ZipND.ZipNodeAdvertisement) (by decide +kernel) _ _ (by decide)]
  simp only [Reg.ZipND.ZipNodeAdvertisement]
  step_bits 5 f
  step_bits 1 f
  step_bits 2 f
  step_u8 n
  rw [parseFields_step (by decide) (by simp [Reader.bytesLeft]; omega)]
  have e : (Reader.mk (0x58 :: 0x01 :: f :: n :: (a ++ h)) 32).value 16 = .ok (a, ⟨[0x58, 0x01, f, n] ++ a ++ h, 8 * ([0x58, 0x01, f, n] ++ a).length⟩) :=
    read_value [0x58, 0x01, f, n] a h 16 ha.symm
  have e2 : (Reader.mk ([0x58, 0x01, f, n] ++ a ++ h) (8 * ([0x58, 0x01, f, n] ++ a).length)).value 4 = .ok (h, ⟨[0x58, 0x01, f, n] ++ a ++ h ++ [], 8 * ([0x58, 0x01, f, n] ++ a ++ h).length⟩) := by
    have := read_value ([0x58, 0x01, f, n] ++ a) h [] 4 hh.symm
    rw [List.append_nil] at this
    exact this
  simp only [readField, deserVal, e, bind, Except.bind, pure, Except.pure]
  step_attr
  rw [parse_last rfl (by decide), if_neg (by rintro rfl; cases hh)]
  simp only [readField, deserVal, deserNum, e2, bind, Except.bind, pure, Except.pure]
  step_attr
  refine ⟨_, rfl, rfl, rfl⟩

/-- What an advertisement looks like on the wire: a byte of flags, the node, its address, the home id. -/
theorem C47_advertisement_bytes (f n : UInt8) (a h : Bytes) (ha : a.length = 16) (hh : h.length = 4) : Advertises (0x58 :: 0x01 :: f :: n :: (a ++ h)) n.toNat a := by
  obtain ⟨v, e, h1, h2⟩ := advertisement_decode f n a h ha hh
  exact ⟨_, ⟨_, e, rfl⟩, rfl, by simp only [Msg.num?, Msg.attr, Msg.attrs, h1], by simp only [advertised, Msg.attr, Msg.attrs, h2]⟩

/-- The full property: a connection created for node `n` is to an address that was advertised for `n`. -/
def C47_statement : Prop :=
  ∀ (ops : List Op) (k : Nat) (l : Link), (run init ops).links[k]? = some l → ∃ b, .conn (.packet b) ∈ ops ∧ Advertises b l.node l.address

/-- **C47 is violated.** Nodes 1 and 2 are looked up at the same time; the advertisement of node 2 arrives and is taken for the address of node 1. -/
theorem C47_violated : ¬ C47_statement := by
  intro h
  obtain ⟨b, hb, m, ⟨p, hp, hm⟩, -, hn, -⟩ := h ([.conn .connect, .connectToNode 1, .connectToNode 2] ++ answered 0 0 2 (addr 2)) 0 ⟨1, addr 2, Conn.init⟩ (by decide +kernel)
  have e : b = advertisement 2 (addr 2) := by simpa [answered] using hb
  subst e
  have hd : ∃ q, decode (advertisement 2 (addr 2)) = .ok q ∧ q.hid = 0x5801 ∧ q.num? "nodeId" = some 2 :=
    ⟨.known 0x5801 [("-", .num (.reserved 5) 0), ("local", .num .flag 0), ("validity", .num (.bits 2) 0), ("nodeId", .num (.uint 1) 2), ("ipv6", .ipv6 (addr 2)), ("homeId", .num (.uint 4) 0x01020304)],
      by decide +kernel, by decide +kernel, by decide +kernel⟩
  obtain ⟨q, hq, h1, h2⟩ := hd
  rw [hp] at hq
  cases hq
  rw [if_neg (by rw [h1]; decide)] at hm
  cases hm
  rw [h2] at hn
  cases hn

/-- **C47**, what holds: if no address of another node is advertised during the call, `connectToNode(n)` connects to an address advertised for node `n` during the call. -/
theorem C47_undisturbed_partial (ops ops' : List Op) (n k : Nat) (l : Link) :
    let s := run init ops
    let s' := run (step s (.connectToNode n)) ops'
    s.conns.get? n = none → s'.jobs[s.jobs.length]? = some (.done (.ok (.conn k))) → s'.links[k]? = some l →
    (∀ b m, .conn (.packet b) ∈ ops' → Delivers b m → m.hid = 0x5801 → m.num? "nodeId" = some (n : Int)) →
    ∃ b, .conn (.packet b) ∈ ops' ∧ Advertises b n l.address := by
  intro s s' hn hj hl hother
  obtain ⟨ws, hw⟩ := run_waiter ops
  obtain ⟨tag, hi⟩ := Waiter.inv_run ws
  rw [← hw] at hi
  obtain ⟨ws', hw', -⟩ := step_w s (.connectToNode n)
  obtain ⟨tag', hi'⟩ := hi.run ws'
  rw [← hw'] at hi'
  obtain ⟨x, hx, hc⟩ := (lookupCall_start (fun m => ∃ b, .conn (.packet b) ∈ ops' ∧ Delivers b m) s hi n hn).run ops' hi' (fun b m hb hd => ⟨b, hb, hd⟩)
  rw [show (Gateway.run (Gateway.step s (.connectToNode n)) ops').jobs[s.jobs.length]? = _ from hj] at hx
  cases hx
  rcases hc with ⟨t, h1, -⟩ | ⟨e, h1⟩ | ⟨k', a, m, h1 | h1, ha, ⟨b, hb, hd⟩, hm, hadv⟩
  · cases h1
  · cases h1
  · cases h1
  · cases h1
    rw [List.getElem?_map, show (Gateway.run (Gateway.step s (.connectToNode n)) ops').links[k]? = _ from hl] at ha
    cases ha
    exact ⟨b, hb, m, hd, hm, hother b m hb hd hm, hadv⟩

/-- Node 5 is looked up and its advertisement arrives. -/
example :
    let s := run init [.conn .connect]
    let s' := run (step s (.connectToNode 5)) (answered 0 0 5 (addr 5) ++ [.opened 0 true])
    s.conns.get? 5 = none ∧ s'.jobs[s.jobs.length]? = some (.done (.ok (.conn 0))) ∧ s'.links.map (fun l => (l.node, l.address)) = [(5, addr 5)] := by
  decide +kernel

/-- Somebody waits for a message with `waitForMessage()` of the gateway, and it arrives. -/
example : (run init [.conn .connect, .conn (.waiter (.call .plain 0x2503 3)), .conn (.packet [0x23, 0x02, 0, 0x50, 7, 0, 0, 0x25, 0x03, 0xFF]),
    .conn (.waiter (.resume 0))]).conn.w.tasks.map (·.pc) = [.done (.ok (.known 0x2503 [("value", .num (.uint 1) 0xFF)]))] := by decide +kernel

end Props.Gateway

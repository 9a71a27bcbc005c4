import Verif.Lemmas.MailNet
/-!
# Property theorems C160, C161: where the things the mailbox holds and sends come from
-/
namespace Props.MailNet
open Model Model.MailNet Spec.Mailbox Spec.MailNet
open Model.Mailbox (Src Ev Out Item Beat Call)

theorem came_of {ops : List Op} {os : List ToNode.Op} (w : ∀ g x y, os = x ++ .gw g :: y → ∃ before later, ops = before ++ .net (.gw g) :: later ∧ (run init before).net = ToNode.run ToNode.init x)
    {n : Nat} {m : Msg} (h : CameN os n m) : Came ops n m := by
  obtain ⟨x, o, y, e, h⟩ := h
  obtain ⟨before, later, h1, h2⟩ := w o x y e
  exact ⟨before, o, later, h1, by rw [h2]; exact h⟩

theorem pushed_of {ops : List Op} {os : List ToNode.Op} (w : ∀ g x y, os = x ++ .gw g :: y → ∃ before later, ops = before ++ .net (.gw g) :: later ∧ (run init before).net = ToNode.run ToNode.init x)
    {n : Nat} {k : Int} {x : List UInt8} (h : PushedN os n k x) : Pushed ops n k x := by
  obtain ⟨m, h1, h2⟩ := h
  exact ⟨m, came_of w h1, h2⟩

theorem acknowledged_of {ops : List Op} {os : List ToNode.Op} (w : ∀ g x y, os = x ++ .gw g :: y → ∃ before later, ops = before ++ .net (.gw g) :: later ∧ (run init before).net = ToNode.run ToNode.init x)
    {n : Nat} {cmd : Msg} (h : AckedN os n cmd) : Acknowledged ops n cmd := by
  obtain ⟨x, k, b, y, e, h⟩ := h
  obtain ⟨before, later, h1, h2⟩ := w _ x y e
  exact ⟨before, k, b, later, h1, by rw [h2]; exact h⟩

/-- **C160**, heartbeats. Every heartbeat is for an entry that its node pushed in a datagram, to the queue the heartbeat is for; and the node has acknowledged the message that says that
the entry waits. -/
theorem C160_heartbeats (ops : List Op) (j : Nat) (b : Beat) (h : (run init ops).mail.beats[j]? = some b) :
    Pushed ops b.item.node b.item.handle b.item.data ∧ ∃ cmd, (waiting b.item).msg = .ok cmd ∧ Acknowledged ops b.item.node cmd := by
  obtain ⟨os, g, w⟩ := whole ops
  obtain ⟨h1, cmd, h2, h3⟩ := g.facts j b h
  exact ⟨pushed_of w h1, cmd, h2, acknowledged_of w h3⟩

/-- **C160**, the queues. The same for every entry that is stored. -/
theorem C160_stored (ops : List Op) (h : Int) (item : Item) (hi : item ∈ (run init ops).mail.items (some h)) :
    item.handle = h ∧ Pushed ops item.node h item.data ∧ ∃ cmd, (waiting item).msg = .ok cmd ∧ Acknowledged ops item.node cmd := by
  obtain ⟨os, g, w⟩ := whole ops
  obtain ⟨h1, j, b, h2, rfl⟩ := g.inv.2.stored h item hi
  subst h1
  exact ⟨rfl, C160_heartbeats ops j b h2⟩

/-- **C160**, messages. Everything the mailbox sends is given to `sendToNode`. An entry in it was pushed to this queue in a datagram; unless it is handed out, by the node it is sent to. A
node gets an answer only after it has asked in a datagram, for this queue or (in an acknowledgement) for none in particular. -/
theorem C160_sent (ops : List Op) (src : Src) (o : Out) (h : .sent src o ∈ (run init ops).mail.log) :
    Given ops o ∧ (∀ x, o.entry = some x → ∃ n, Pushed ops n o.handle x) ∧
      (o.operation ≠ .pop → ∃ x, o.entry = some x ∧ Pushed ops o.node o.handle x) ∧ (o.operation = .pop → Asked ops o.node o.handle) := by
  obtain ⟨os, g, w⟩ := whole ops
  obtain ⟨⟨k, h1⟩, h2⟩ := g.sent src o h
  refine ⟨?_, fun x hx => ?_, fun ho => ?_, fun ho => ?_⟩
  · obtain ⟨d, cmd, e1, e2, e3, e4, e5, e6⟩ := h1.call
    exact ⟨d, by rw [g.net]; exact List.mem_of_getElem? e1, e3, by rw [e2, e4], e5, e6⟩
  · obtain ⟨n, hn⟩ := h2.pushed x hx
    exact ⟨n, pushed_of w hn⟩
  · obtain ⟨x, e1, e2⟩ := h2.own ho
    exact ⟨x, e1, pushed_of w e2⟩
  · obtain ⟨m, e1, e2⟩ := h2.asked ho
    exact ⟨m, came_of w e1, e2⟩

/-- **C160**, the end of heartbeats. Heartbeats for an entry only end when a node has acknowledged the message that hands the entry out, or when sending a heartbeat raised. -/
theorem C160_stopped (ops : List Op) (j : Nat) (b : Beat) (h : (run init ops).mail.beats[j]? = some b) (he : b.pc = .ended) :
    (∃ n last cmd, (⟨n, last, .pop, b.item.handle, some b.item.data⟩ : Out).msg = .ok cmd ∧ Acknowledged ops n cmd) ∨
    ∃ op, op ≠ .pop ∧ ∃ d ∈ (run init ops).net.calls, d.node = b.item.node ∧ (⟨b.item.node, false, op, b.item.handle, some b.item.data⟩ : Out).msg = .ok d.cmd ∧
      ∃ e, d.pc = .done (.error e) := by
  obtain ⟨os, g, w⟩ := whole ops
  rcases g.ended j b h he with ⟨n, last, cmd, h1, h2⟩ | ⟨o, ⟨op, h1, rfl⟩, d, h2, h3, h4, e, h5⟩
  · exact .inl ⟨n, last, cmd, h1, acknowledged_of w h2⟩
  · exact .inr ⟨op, h1, d, by rw [g.net]; exact h2, h3, h4, e, h5⟩

/-! ## Example -/

/-- A connection to node `n` is opened: the `k`-th one, by the call `c` of `sendToNode`. -/
def link (n : UInt8) (k c : Nat) : List Op :=
  [.net (.send n.toNat (.known 0x2502 []) 0 0 3), .net (.gw (.conn (.packet ([0x58, 0x01, 0, n] ++ List.replicate 15 0xFD ++ [n] ++ [1, 2, 3, 4])))),
   .net (.gw (.conn (.waiter (.resume k)))), .net (.gw (.job c [])), .net (.gw (.opened c true)), .net (.resume c)]

/-- A datagram with this command arrives on connection `k`. -/
def arrives (k : Nat) (b : List UInt8) : Op := .net (.gw (.link k (.packet ([0x23, 0x02, 0, 0x50, 7, 0, 0] ++ b))))

/-- The send `i` on connection `k` is acknowledged, which is what the call `c` of `sendToNode` awaits. -/
def acked (k i c : Nat) : List Op :=
  [.net (.gw (.link k (.packet [0x23, 0x02, 0x40, 0x10, UInt8.ofNat (i + 1), 0, 0]))), .net (.gw (.link k (.resume i))), .net (.resume c)]

/-- Node 3 pushes an entry to queue 5. -/
def storing : List Op :=
  .net (.gw (.conn .connect)) :: link 3 0 0 ++ [arrives 0 [0x69, 0x04, 0x00, 0x05, 0x20, 0x01, 0xFF], .deliver 0] ++ acked 0 1 1 ++ [.proceed (.call 0)]

/-- The entry is stored, and its heartbeat runs. -/
example : (run init storing).mail.items (some 5) = [⟨0, 3, 5, [0x20, 0x01, 0xFF]⟩] ∧ (run init storing).mail.beats.map (·.pc) = [.sleeping] := by decide +kernel

/-- One heartbeat, then node 3 wakes up and gets its entry, which it acknowledges: the heartbeat ends. -/
def fetching : List Op := storing ++ [.wake 0] ++ acked 0 2 2 ++ [.proceed (.beat 0), arrives 0 [0x69, 0x05, 0x05], .deliver 1] ++ acked 0 3 3 ++ [.proceed (.call 1)]

example : (run init fetching).mail.items (some 5) = [] ∧ (run init fetching).mail.beats.map (·.pc) = [.ended] ∧
    ((run init fetching).net.calls.map fun c => (c.node, (compose c.cmd).toOption)) =
      [(3, some [0x25, 0x02]), (3, some [0x69, 0x04, 0x02, 0x05, 0x20, 0x01, 0xFF]), (3, some [0x69, 0x04, 0x02, 0x05, 0x20, 0x01, 0xFF]),
       (3, some [0x69, 0x04, 0x09, 0x05, 0x20, 0x01, 0xFF])] := by decide +kernel

/-! ## C161 -/

/-- The full property: an entry is only handed out to the node that pushed it. -/
def C161_statement : Prop := ∀ (ops : List Op) (src : Src) (o : Out) (x : List UInt8), .sent src o ∈ (run init ops).mail.log → o.operation = .pop → o.entry = some x →
  Pushed ops o.node o.handle x

/-- Node 3 pushes an entry to queue 5. Node 4, which has a queue 5 too, wakes up. -/
def strangers : List Op := storing ++ link 4 1 2 ++ [arrives 1 [0x69, 0x05, 0x05], .deliver 1]

/-- The messages that an operation of the gateway can be the arrival of, with the node. -/
def arriving (g : Gateway.State) : Gateway.Op → List (Nat × Msg)
  | .link k (.packet b) =>
    match g.links[k]?, decode b with
    | some l, .ok p => (l.node, p) :: p.command.toList.map fun c => (l.node, c)
    | _, _ => []
  | .unsolicited b _ _ =>
    match decode b with
    | .ok p => g.nodes.flatMap fun q => p.command.toList.map fun c => (q.1, c)
    | .error _ => []
  | _ => []

theorem arriving_of {g : Gateway.State} {o : Gateway.Op} {n : Nat} {m : Msg} (h : Heard g o n m) : (n, m) ∈ arriving g o := by
  rcases h with ⟨k, l, b, p, rfl, hl, rfl, hd, h⟩ | ⟨b, sender, order, p, rfl, hn, hd, h⟩
  · simp only [arriving, hl, hd]
    rcases h with h | ⟨-, rfl⟩
    · simp [h]
    · simp
  · simp only [arriving, hd, List.mem_flatMap]
    exact ⟨_, hn, by simp [h]⟩

/-- All of them in a schedule. -/
def arrivals (s : State) : List Op → List (Nat × Msg)
  | [] => []
  | .net (.gw o) :: l => arriving s.net.gw o ++ arrivals (step s (.net (.gw o))) l
  | o :: l => arrivals (step s o) l

theorem arrivals_cons (s : State) (o : Op) (l : List Op) {q : Nat × Msg} (h : q ∈ arrivals (step s o) l) : q ∈ arrivals s (o :: l) := by
  unfold arrivals
  split
  · rename_i e; cases e
  · rename_i e; cases e; exact List.mem_append_right _ h
  · rename_i e; cases e; exact h

theorem arrivals_of {n : Nat} {m : Msg} {o : Gateway.Op} {later : List Op} : ∀ (before : List Op) (s : State), Heard (run s before).net.gw o n m →
    (n, m) ∈ arrivals s (before ++ .net (.gw o) :: later) := by
  intro before
  induction before with
  | nil => exact fun s h => List.mem_append_left _ (arriving_of h)
  | cons a l ih => exact fun s h => arrivals_cons s a _ (ih (step s a) h)

theorem came_arrivals {ops : List Op} {n : Nat} {m : Msg} (h : Came ops n m) : (n, m) ∈ arrivals init ops := by
  obtain ⟨before, o, later, rfl, h⟩ := h
  exact arrivals_of before init h

/-- **C161** does not hold: queues are found by their number alone, so a node gets what another node pushed to a queue with the same number (mailbox.py:76, 90-114). -/
theorem C161_violated : ¬ C161_statement := by
  intro h
  obtain ⟨m, h1, h2, -⟩ := h strangers (.call 1) ⟨4, true, .pop, 5, some [0x20, 0x01, 0xFF]⟩ [0x20, 0x01, 0xFF] (by decide +kernel) rfl rfl
  have key : ∀ q ∈ arrivals init strangers, q.1 = 4 → q.2.hid ≠ Reg.Mailbox.Queue.hid := by decide +kernel
  exact key _ (came_arrivals h1) rfl h2

/-- Node 4 was not told that an entry waits, and has nothing in a queue of its own; and when it has acknowledged the datagram, node 3 is not told about its entry any more. -/
example : (run init (strangers ++ acked 1 1 3 ++ [.proceed (.call 1)])).mail.items (some 5) = [] ∧
    (run init (strangers ++ acked 1 1 3 ++ [.proceed (.call 1)])).mail.beats.map (·.pc) = [.ended] := by decide +kernel

/-- **C161**, as far as it holds: it holds when only one node uses the mailbox. -/
theorem C161_one_partial (ops : List Op) (n : Nat) (hn : ∀ n' m, Came ops n' m → m.hid = Reg.Mailbox.Queue.hid ∨ m.hid = Reg.Mailbox.WakeupNotification.hid → n' = n)
    (src : Src) (o : Out) (x : List UInt8) (h : .sent src o ∈ (run init ops).mail.log) (ho : o.operation = .pop) (hx : o.entry = some x) : Pushed ops o.node o.handle x := by
  obtain ⟨-, h1, -, h2⟩ := C160_sent ops src o h
  obtain ⟨n', m, h3, h4⟩ := h1 x hx
  obtain ⟨m', h5, h6⟩ := h2 ho
  have e1 : n' = n := hn n' m h3 (.inl h4.1)
  have e2 : o.node = n := hn _ m' h5 (h6.elim (fun h => .inr h.1) fun h => .inl h.1)
  rw [e2, ← e1]
  exact ⟨m, h3, h4⟩

/-- **C161**, as far as it holds: it holds when no two nodes use the same number for their queues, and every acknowledgement of an entry names its queue. -/
theorem C161_queues_partial (ops : List Op) (owner : Int → Nat) (hn : ∀ n m h, Came ops n m → (∃ x, IsPush m h x) ∨ IsWakeup m h ∨ IsAck m h → n = owner h)
    (ha : ∀ n m, Came ops n m → m.hid = Reg.Mailbox.Queue.hid → Classes.numAttr m "operation" = some 4 → ∃ h, h ≠ 0 ∧ Classes.numAttr m "queueHandle" = some h)
    (src : Src) (o : Out) (x : List UInt8) (h : .sent src o ∈ (run init ops).mail.log) (ho : o.operation = .pop) (hx : o.entry = some x) : Pushed ops o.node o.handle x := by
  obtain ⟨-, h1, -, h2⟩ := C160_sent ops src o h
  obtain ⟨n, m, h3, h4⟩ := h1 x hx
  obtain ⟨m', h5, h6⟩ := h2 ho
  have e1 : n = owner o.handle := hn n m _ h3 (.inl ⟨x, h4⟩)
  have e2 : o.node = owner o.handle := by
    refine hn _ m' _ h5 (.inr ?_)
    rcases h6 with h6 | ⟨h6, h7, h8⟩
    · exact .inl h6
    · obtain ⟨k, k0, hk⟩ := ha _ m' h5 h6 h7
      rcases h8 with h8 | h8 | h8
      · exact .inr ⟨h6, h7, h8⟩
      · rw [hk] at h8; cases h8
      · rw [hk] at h8; cases h8; exact absurd rfl k0
  rw [e2, ← e1]
  exact ⟨m, h3, h4⟩

/-- Node 3 pushes an entry to queue 5, wakes up and gets it, and pushes another one. Then node 4, which has not used queue 5, acknowledges an entry without naming a queue. -/
def unnamed : List Op := storing ++ [arrives 0 [0x69, 0x05, 0x05], .deliver 1] ++ link 4 1 3 ++
  [arrives 0 [0x69, 0x04, 0x00, 0x05, 0x20, 0x01, 0x00], .deliver 2] ++ acked 0 3 4 ++ [.proceed (.call 2), arrives 1 [0x69, 0x04, 0x04, 0x00], .deliver 3]

/-- **C161** does not hold either when all nodes use different numbers: an acknowledgement that names no queue is taken for the queue of the node that woke up last (mailbox.py:147, 154). -/
theorem C161_violated_unnamed : ∃ (ops : List Op) (src : Src) (o : Out) (x : List UInt8), .sent src o ∈ (run init ops).mail.log ∧ o.operation = .pop ∧ o.entry = some x ∧
    ¬ Pushed ops o.node o.handle x ∧ ∀ n m h, Came ops n m → h ≠ 0 → (∃ x, IsPush m h x) ∨ IsWakeup m h ∨ IsAck m h → n = 3 := by
  refine ⟨unnamed, .call 3, ⟨4, true, .pop, 5, some [0x20, 0x01, 0x00]⟩, [0x20, 0x01, 0x00], by decide +kernel, rfl, rfl, ?_, ?_⟩
  · rintro ⟨m, h1, h2, h3, -⟩
    have key : ∀ q ∈ arrivals init unnamed, q.1 = 4 → Classes.numAttr q.2 "operation" ≠ some 0 := by decide +kernel
    exact key _ (came_arrivals h1) rfl h3
  · intro n m h h1 h0 h2
    have key : ∀ q ∈ arrivals init unnamed, q.1 = 3 ∨ Classes.numAttr q.2 "queueHandle" = some 0 ∨ Classes.numAttr q.2 "queueHandle" = none := by decide +kernel
    have hq : Classes.numAttr m "queueHandle" = some h := by
      rcases h2 with ⟨x, h2⟩ | h2 | h2
      · exact h2.2.2.1
      · exact h2.2
      · exact h2.2.2
    rcases key _ (came_arrivals h1) with k | k | k
    · exact k
    · rw [hq] at k; cases k; exact absurd rfl h0
    · rw [hq] at k; cases k

/-- **C161**, as far as it holds: what tells a node that an entry waits goes to the node that pushed it, whoever else uses the mailbox. -/
theorem C161_waiting_partial (ops : List Op) (src : Src) (o : Out) (x : List UInt8) (h : .sent src o ∈ (run init ops).mail.log) (ho : o.operation ≠ .pop) (hx : o.entry = some x) :
    Pushed ops o.node o.handle x := by
  obtain ⟨y, h1, h2⟩ := (C160_sent ops src o h).2.2.1 ho
  rw [hx] at h1
  cases h1
  exact h2

/-- The assumption of the first one holds in the run above in which node 3 gets its entry. -/
example : ∃ o, .sent (.call 1) o ∈ (run init fetching).mail.log ∧ o.operation = .pop ∧ o.entry = some [0x20, 0x01, 0xFF] ∧ Pushed fetching o.node o.handle [0x20, 0x01, 0xFF] := by
  refine ⟨⟨3, true, .pop, 5, some [0x20, 0x01, 0xFF]⟩, by decide +kernel, rfl, rfl, ?_⟩
  refine C161_one_partial fetching 3 (fun n' m h _ => ?_) (.call 1) _ _ (by decide +kernel) rfl rfl
  have key : ∀ q ∈ arrivals init fetching, q.1 = 3 := by decide +kernel
  exact key _ (came_arrivals h)

/-- Nodes 3 and 4 with different queues: each gets its own entry. -/
def apart : List Op := storing ++ link 4 1 2 ++ [arrives 1 [0x69, 0x04, 0x00, 0x06, 0x20, 0x01, 0x00], .deliver 1] ++ acked 1 1 3 ++ [.proceed (.call 1)] ++
  [arrives 1 [0x69, 0x05, 0x06], .deliver 2, arrives 0 [0x69, 0x04, 0x04, 0x05], .deliver 3]

example : .sent (.call 2) ⟨4, true, .pop, 6, some [0x20, 0x01, 0x00]⟩ ∈ (run init apart).mail.log ∧ .sent (.call 3) ⟨3, true, .pop, 5, some [0x20, 0x01, 0xFF]⟩ ∈ (run init apart).mail.log ∧
    Pushed apart 3 5 [0x20, 0x01, 0xFF] := by
  refine ⟨by decide +kernel, by decide +kernel, ?_⟩
  refine C161_queues_partial apart (fun h => if h = 6 then 4 else 3) (fun n m h h1 h2 => ?_) (fun n m h1 h2 h3 => ?_) (.call 3) ⟨3, true, .pop, 5, some [0x20, 0x01, 0xFF]⟩ _ (by decide +kernel) rfl rfl
  · have key : ∀ q ∈ arrivals init apart, Classes.numAttr q.2 "queueHandle" = none ∨ q.1 = 4 ∧ Classes.numAttr q.2 "queueHandle" = some 6 ∨
        q.1 = 3 ∧ Classes.numAttr q.2 "queueHandle" = some 5 := by decide +kernel
    have hq : Classes.numAttr m "queueHandle" = some h := by
      rcases h2 with ⟨x, h2⟩ | h2 | h2
      · exact h2.2.2.1
      · exact h2.2
      · exact h2.2.2
    have := key _ (came_arrivals h1)
    dsimp only at this
    rw [hq] at this
    rcases this with k | ⟨rfl, k⟩ | ⟨rfl, k⟩ <;> cases k <;> rfl
  · have key : ∀ q ∈ arrivals init apart, q.2.hid = Reg.Mailbox.Queue.hid → Classes.numAttr q.2 "operation" = some 4 → Classes.numAttr q.2 "queueHandle" = some 5 := by decide +kernel
    exact ⟨5, by omega, key _ (came_arrivals h1) h2 h3⟩

end Props.MailNet

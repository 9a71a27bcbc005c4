import Verif.Spec.MailNet
import Verif.Lemmas.Origin
import Verif.Lemmas.System
import Verif.Lemmas.Mailbox
import Verif.Props.ToNode
/-!
# Lemmas about the mailbox in the network
-/
namespace Model.Gateway
open Spec.MailNet (Heard)

/-- What the told message says, whatever the end point. -/
def Told.Tells (t : Told) (n : Nat) (c : Msg) : Prop := t.node = n ∧ t.message = some c

theorem heardFrom_step (ops : List Op) (o : Op) : let s := run init ops
    ∃ new, (step s o).told = s.told ++ new ∧ ∀ t ∈ new, ∀ n c, t.Tells n c → Heard s o n c := by
  intro s
  have same : (step s o).told = s.told → ∃ new, (step s o).told = s.told ++ new ∧ ∀ t ∈ new, ∀ n c, t.Tells n c → Heard s o n c :=
    fun h => ⟨[], by rw [h, List.append_nil], by simp⟩
  cases o with
  | nm c =>
    obtain ⟨x, j, h⟩ := startNm_frame s c
    exact same (by simp only [step, h, State.addJob])
  | setMode mode =>
    obtain ⟨c, j, h⟩ := startAsk_frame s (.mode mode) (.known Reg.ZipGateway.GatewayModeGet.hid []) 0x5F03 3
    exact same (by simp only [step, h]; rfl)
  | setup order =>
    refine same ?_
    simp only [step]
    split
    · obtain ⟨c, j, h⟩ := setupLoop_frame (iter s.nodes.keys order) s
      rw [h]; rfl
    · split
      · rfl
      · rename_i cmd _
        obtain ⟨c, j, h⟩ := startAsk_frame { s with nmSeq := s.nmSeq + 1 } .setup cmd 0x5202 3
        rw [h]; rfl
  | connectToNode n =>
    refine same ?_
    obtain ⟨c, j, h⟩ := connectToNode_frame s n
    simp only [step, h]; rfl
  | opened i ok =>
    refine same ?_
    simp only [step]
    split
    · split <;> rfl
    · rfl
  | job i order =>
    refine same ?_
    obtain ⟨c, d, n, k, l, js, h⟩ := stepJob_frame s i order
    simp only [step, h]
  | conn o =>
    refine same ?_
    simp only [step]
    split <;> rfl
  | unsolicited pkt sender order =>
    simp only [step, onUnsolicitedMessage]
    cases hd : decode pkt with
    | error e => exact ⟨[], by simp, by simp⟩
    | ok p =>
      dsimp only
      cases p.command.filter (fun c => c.hid = 0x5202) with
      | some report =>
        obtain ⟨c, k, n, j, h⟩ := handle_frame s report order
        dsimp only
        rw [h]
        exact ⟨[], by simp [State.addJob], by simp⟩
      | none =>
        dsimp only
        cases hf : s.nodes.find? (fun e => e.2 = some sender) with
        | none => exact ⟨[], by simp, by simp⟩
        | some x =>
          obtain ⟨n, v⟩ := x
          have hv : v = some sender := by have := List.find?_some hf; simpa using this
          have hn : (n, some sender) ∈ s.nodes := hv ▸ List.mem_of_find?_eq_some hf
          have key : ∀ t ∈ [(⟨n, p.num? "sourceEP", p.command, getAttr registry p "headerExtension"⟩ : Told)], ∀ n' c, t.Tells n' c →
              Heard s (.unsolicited pkt sender order) n' c := by
            intro t ht n' c hs
            simp only [List.mem_singleton] at ht
            subst ht
            obtain ⟨h1, h3⟩ := hs
            cases h1
            exact .inr ⟨pkt, sender, order, p, rfl, hn, hd, h3⟩
          dsimp only
          split
          · split
            · split
              · exact ⟨[], by simp, by simp⟩
              · exact ⟨_, rfl, key⟩
            · exact ⟨[], by simp, by simp⟩
          · exact ⟨_, rfl, key⟩
  | link k o =>
    have hinv : LinkInv s := linkInv_init.run ops
    cases hl : s.links[k]? with
    | none => exact same (by simp only [step, hl])
    | some l =>
      cases hf : s.conns.find? (fun p => p.2 = k) with
      | none =>
        refine same ?_
        simp only [step, hl]
        rw [told_none k _ _ (by exact hf)]
      | some p =>
        obtain ⟨n, v⟩ := p
        have hv : v = k := by have := List.find?_some hf; simpa using this
        have hnode : l.node = n := by
          have h := hinv.conns n v (List.mem_of_find?_eq_some hf)
          rw [hv, List.getElem?_map, hl] at h
          simpa using h
        refine ⟨_, Props.Gateway.link_told s k n v l hl hf o, fun t ht n' c hs => ?_⟩
        rcases Conn.heard_step l.conn o with h | ⟨b, p, rfl, hp, h⟩
        · rw [h, List.drop_length] at ht; cases ht
        · rw [h, List.drop_left] at ht
          simp only [List.map_cons, List.map_nil, List.mem_singleton] at ht
          subst ht
          obtain ⟨h1, h3⟩ := hs
          refine .inl ⟨k, l, b, p, rfl, hl, hnode.trans h1, hp, ?_⟩
          simp only [toldOf] at h3
          by_cases hz : p.hid = 0x2302
          · rw [if_pos hz] at h3; exact .inl h3
          · rw [if_neg hz] at h3
            simp only [Option.some.injEq] at h3
            exact .inr ⟨hz, h3.symm⟩

end Model.Gateway

namespace Model.ToNode
open Spec.MailNet (Heard)

/-- Everything the listeners are told came in a datagram. -/
theorem heardFrom (ops : List Op) : ∀ (i : Nat) (t : Gateway.Told), (run init ops).gw.told[i]? = some t → ∀ n c, t.Tells n c →
    ∃ pre o post, ops = pre ++ .gw o :: post ∧ Heard (run init pre).gw o n c := by
  induction ops using Conn.snoc_ind with
  | nil => intro i t h; simp [run, init, Gateway.init] at h
  | snoc ops o ih =>
    intro i t h n c hs
    have old : (run init ops).gw.told[i]? = some t → ∃ pre o' post, ops ++ [o] = pre ++ .gw o' :: post ∧ Heard (run init pre).gw o' n c := by
      intro h
      obtain ⟨pre, o', post, h1, h2⟩ := ih i t h n c hs
      exact ⟨pre, o', post ++ [o], by rw [h1]; simp, h2⟩
    have hp : ∀ (s : State) (os : List Gateway.Op) (j : Nat), s.gw = Gateway.run Gateway.init os → (proceed s j).gw.told = s.gw.told := by
      intro s os j hs
      rw [proceed_gw]
      split
      · rename_i k o' hi
        obtain ⟨cmd, src, dst, timeout, rfl⟩ := issued_send hi
        rw [hs]; exact send_told os k cmd src dst timeout
      · rfl
    obtain ⟨os, hos⟩ := gw_run ops
    rw [run_snoc] at h
    cases o with
    | resume j =>
      refine old ?_
      simp only [step] at h
      rw [hp _ os j hos] at h
      exact h
    | send node cmd src dst timeout =>
      refine old ?_
      simp only [step, sendToNode] at h
      rw [hp _ (os ++ [.connectToNode node]) _ (by simp only; rw [hos]; simp [Gateway.run])] at h
      dsimp only at h
      obtain ⟨c, j, h'⟩ := Gateway.connectToNode_frame (run init ops).gw node
      simp only [Gateway.step, h'] at h
      exact h
    | gw o' =>
      obtain ⟨new, h1, h2⟩ := Gateway.heardFrom_step os o'
      rw [← hos] at h1 h2
      simp only [step] at h
      rw [h1] at h
      rcases Nat.lt_or_ge i (run init ops).gw.told.length with hl | hl
      · rw [List.getElem?_append_left hl] at h; exact old h
      · rw [List.getElem?_append_right hl] at h
        exact ⟨ops, o', [], rfl, h2 t (List.mem_of_getElem? h) n c hs⟩

end Model.ToNode

namespace Model.MailNet
open Spec.Mailbox Spec.MailNet
open Model.Mailbox (Src Ev Out Item Beat Call)

theorem constructed (o : Out) : ∃ m, o.msg = .ok m := by
  obtain ⟨node, last, op, handle, entry⟩ := o
  cases entry <;> exact ⟨_, rfl⟩

/-! ## What happened to the network -/

/-- The message came in a datagram from node `n`. -/
def CameN (os : List ToNode.Op) (n : Nat) (m : Msg) : Prop := ∃ x o y, os = x ++ .gw o :: y ∧ Heard (ToNode.run ToNode.init x).gw o n m

/-- The command was acknowledged by node `n`. -/
def AckedN (os : List ToNode.Op) (n : Nat) (cmd : Msg) : Prop :=
  ∃ x k b y, os = x ++ .gw (.link k (.packet b)) :: y ∧
    ∃ d ∈ (ToNode.run ToNode.init x).calls, ∃ l i, d.node = n ∧ d.cmd = cmd ∧ d.destEP = 0 ∧ d.pc = .sending k i ∧
      (ToNode.run ToNode.init x).gw.links[k]? = some l ∧ l.node = n ∧ Spec.AckFor b ((i + 1) % 256)

/-- Call number `k` sends the message. -/
def SentN (os : List ToNode.Op) (k : Nat) (o : Out) : Prop :=
  ∃ cmd, o.msg = .ok cmd ∧ ∃ x y, os = x ++ .send o.node cmd 0 0 3 :: y ∧ k = (ToNode.run ToNode.init x).calls.length

theorem CameN.mono {os : List ToNode.Op} {n : Nat} {m : Msg} (h : CameN os n m) (l : List ToNode.Op) : CameN (os ++ l) n m := by
  obtain ⟨x, o, y, e, h⟩ := h
  exact ⟨x, o, y ++ l, by rw [e]; simp, h⟩

theorem AckedN.mono {os : List ToNode.Op} {n : Nat} {m : Msg} (h : AckedN os n m) (l : List ToNode.Op) : AckedN (os ++ l) n m := by
  obtain ⟨x, k, b, y, e, h⟩ := h
  exact ⟨x, k, b, y ++ l, by rw [e]; simp, h⟩

theorem SentN.mono {os : List ToNode.Op} {k : Nat} {o : Out} (h : SentN os k o) (l : List ToNode.Op) : SentN (os ++ l) k o := by
  obtain ⟨cmd, hc, x, y, e, h⟩ := h
  exact ⟨cmd, hc, x, y ++ l, by rw [e]; simp, h⟩

theorem run_net_append (s : ToNode.State) (a b : List ToNode.Op) : ToNode.run s (a ++ b) = ToNode.run (ToNode.run s a) b := List.foldl_append

/-- The call that sends the message. -/
theorem SentN.call {os : List ToNode.Op} {k : Nat} {o : Out} (h : SentN os k o) :
    ∃ d cmd, (ToNode.run ToNode.init os).calls[k]? = some d ∧ o.msg = .ok cmd ∧ d.node = o.node ∧ d.cmd = cmd ∧ d.sourceEP = 0 ∧ d.destEP = 0 := by
  obtain ⟨cmd, hc, x, y, rfl, rfl⟩ := h
  obtain ⟨c0, c1, c2, c3, c4, c5, c6⟩ := ToNode.send_new (ToNode.run ToNode.init x) o.node cmd 0 0 3
  obtain ⟨d1, e1, e2, e3, e4, e5, e6⟩ := ToNode.run_same y _ c1
  refine ⟨d1, cmd, ?_, hc, e2.trans c2, e3.trans c3, e4.trans c4, e5.trans c5⟩
  rw [run_net_append]
  exact e1

theorem SentN.acked {os : List ToNode.Op} {k : Nat} {o : Out} (h : SentN os k o) {d : ToNode.Call} (hd : (ToNode.run ToNode.init os).calls[k]? = some d) (hp : d.pc = .done (.ok true)) :
    ∃ cmd, o.msg = .ok cmd ∧ AckedN os o.node cmd := by
  obtain ⟨d1, cmd, h1, h2, h3, h4, -, h5⟩ := h.call
  cases Option.some.inj (h1.symm.trans hd)
  refine ⟨cmd, h2, ?_⟩
  obtain ⟨x, y, d0, j, n, f1, f2, f3, f4, f5⟩ := ToNode.returned _ _ d true hd hp
  rw [f5] at f4
  obtain ⟨before, z, after, g1, g2, g3⟩ := Props.ToNode.C97_true x _ j n d0 f2 f3 f4
  have hok := (ToNode.inv_run before).calls _ d0 g3
  simp only [ToNode.CallOk, f3] at hok
  obtain ⟨l, l1, l2, -⟩ := hok
  have hn : d0.node = o.node := by rw [← h3, f5]
  exact ⟨before, j, z, after ++ .resume k :: y, by rw [f1, g1]; simp, d0, List.mem_of_getElem? g3, l, n, hn, by rw [← h4, f5], by rw [← h5, f5], f3, l1, l2.trans hn, g2⟩

/-- A call that has ended stays so. -/
theorem proceed_done (s : ToNode.State) (i : Nat) {k : Nat} {d : ToNode.Call} {r : Py Bool} (h : s.calls[k]? = some d) (hp : d.pc = .done r) : (ToNode.proceed s i).calls[k]? = some d := by
  unfold ToNode.proceed
  split
  · exact h
  · rename_i c hc
    by_cases hik : i = k
    · subst hik
      cases Option.some.inj (hc.symm.trans h)
      rw [hp]; exact h
    · split
      · split
        · simp only [List.getElem?_set_ne hik]; exact h
        · simp only [List.getElem?_set_ne hik]; exact h
        · exact h
      · split
        · simp only [List.getElem?_set_ne hik]; exact h
        · exact h
      · exact h

theorem net_done (l : List ToNode.Op) : ∀ (s : ToNode.State) {k : Nat} {d : ToNode.Call} {r : Py Bool}, s.calls[k]? = some d → d.pc = .done r → (ToNode.run s l).calls[k]? = some d := by
  induction l with
  | nil => intro s k d r h _; exact h
  | cons o l ih =>
    intro s k d r h hp
    refine ih (ToNode.step s o) (r := r) ?_ hp
    cases o with
    | gw o => exact h
    | resume i => exact proceed_done s i h hp
    | send node cmd src dst timeout =>
      refine proceed_done _ _ ?_ hp
      rw [List.getElem?_append_left (List.getElem?_eq_some_iff.1 h).1]; exact h

/-! ## What happens to the mailbox -/

/-- An acknowledgement of an entry that names no queue. -/
theorem asks_ack {m : Msg} (h : m.hid = Reg.Mailbox.Queue.hid ∧ Classes.numAttr m "operation" = some 4) (last : Option Int) (k : Int)
    (hk : (match Classes.numAttr m "queueHandle" with | some h => if h = 0 then last else some h | none => last) = some k) : Asks m k := by
  cases hq : Classes.numAttr m "queueHandle" with
  | none => exact .inr ⟨h.1, h.2, .inr (.inl hq)⟩
  | some q =>
    rw [hq] at hk
    dsimp only at hk
    split at hk
    · rename_i h0
      exact .inr ⟨h.1, h.2, .inr (.inr (by rw [hq, h0]))⟩
    · exact .inr ⟨h.1, h.2, .inl (by rw [hq, hk])⟩

/-- What receiving a message does. -/
structure Recv (s : Mailbox.State) (node : Nat) (m : Msg) (s' : Mailbox.State) (pc : Mailbox.Pc) : Prop where
  calls : s'.calls = s.calls ++ [⟨node, m, pc⟩]
  beats : s'.beats = s.beats
  log : (pc = .done ∧ ∃ r, s'.log = s.log ++ [.ended s.calls.length m r]) ∨
    (pc = .popEmpty ∧ ∃ h, Asks m h ∧ s'.log = s.log ++ [.sent (.call s.calls.length) ⟨node, true, .pop, h, none⟩]) ∨
    (∃ item h last, pc = .pop item ∧ Asks m h ∧ item ∈ s.items (some h) ∧ s'.log = s.log ++ [.sent (.call s.calls.length) ⟨node, last, .pop, h, some item.data⟩]) ∨
    ∃ h x, pc = .push ⟨s.calls.length, node, h, x⟩ ∧ IsPush m h x ∧ s'.log = s.log ++ [.sent (.call s.calls.length) ⟨node, false, .waiting, h, some x⟩]

theorem recv_pop {s : Mailbox.State} {node : Nat} {m : Msg} (handle last : Option Int) (ha : ∀ h, handle = some h → Asks m h) : ∃ pc, Recv s node m (Mailbox.popQueue { s with lastQueueId := last } node m handle) pc := by
  unfold Mailbox.popQueue
  split
  · split
    · exact ⟨_, rfl, rfl, .inl ⟨rfl, _, rfl⟩⟩
    · exact ⟨_, rfl, rfl, .inr (.inl ⟨rfl, _, ha _ rfl, rfl⟩)⟩
  · rename_i item hi
    dsimp only
    split
    · exact ⟨_, rfl, rfl, .inl ⟨rfl, _, rfl⟩⟩
    · exact ⟨_, rfl, rfl, .inr (.inr (.inl ⟨item, _, _, rfl, ha _ rfl, List.mem_of_getLast? hi, rfl⟩))⟩

theorem recv (s : Mailbox.State) (node : Nat) (m : Msg) : ∃ pc, Recv s node m (Mailbox.received s node m) pc := by
  unfold Mailbox.received
  split
  · rename_i h
    exact recv_pop _ _ fun k hk => .inl ⟨h, hk⟩
  · split
    · rename_i h
      exact recv_pop _ s.lastQueueId fun k hk => asks_ack h _ k hk
    · split
      · rename_i h
        unfold Mailbox.pushQueue
        dsimp only
        split
        · exact ⟨_, rfl, rfl, .inl ⟨rfl, _, rfl⟩⟩
        · split
          · exact ⟨_, rfl, rfl, .inl ⟨rfl, _, rfl⟩⟩
          · rename_i k hk
            exact ⟨_, rfl, rfl, .inr (.inr (.inr ⟨k, _, rfl, ⟨h.1, h.2, hk, rfl⟩, rfl⟩))⟩
      · exact ⟨_, rfl, rfl, .inl ⟨rfl, _, rfl⟩⟩

theorem issue_same {s : State} {mail : Mailbox.State} (h : mail.log = s.mail.log) : issue s mail = { s with mail := mail } := by
  unfold issue; rw [h, List.drop_length]

theorem issue_ended {s : State} {mail : Mailbox.State} {i : Nat} {m : Msg} {r : Py (Option Bool)} (h : mail.log = s.mail.log ++ [.ended i m r]) : issue s mail = { s with mail := mail } := by
  unfold issue; rw [h, List.drop_left]

theorem issue_sent {s : State} {mail : Mailbox.State} {src : Src} {o : Out} (h : mail.log = s.mail.log ++ [.sent src o]) :
    ∃ cmd, o.msg = .ok cmd ∧ issue s mail = { s with mail := mail, net := ToNode.step s.net (.send o.node cmd 0 0 3), sends := s.sends ++ [(src, s.net.calls.length)] } := by
  obtain ⟨cmd, hc⟩ := constructed o
  refine ⟨cmd, hc, ?_⟩
  unfold issue; rw [h, List.drop_left]
  simp only [hc]

theorem latest_self (l : List (Src × Nat)) (src : Src) (k : Nat) : latest (l ++ [(src, k)]) src = some k := by simp [latest]

theorem latest_other (l : List (Src × Nat)) {src src' : Src} (k : Nat) (h : src' ≠ src) : latest (l ++ [(src', k)]) src = latest l src := by simp [latest, h]

/-! ## What is known -/

/-- Node `n` pushed the entry. -/
def PushedN (os : List ToNode.Op) (n : Nat) (h : Int) (x : List UInt8) : Prop := ∃ m, CameN os n m ∧ IsPush m h x

/-- The entry was pushed by its node, which has acknowledged that it waits. -/
def Facts (os : List ToNode.Op) (it : Item) : Prop := PushedN os it.node it.handle it.data ∧ ∃ cmd, (waiting it).msg = .ok cmd ∧ AckedN os it.node cmd

/-- What is known about a message that was sent. -/
structure Fine (os : List ToNode.Op) (o : Out) : Prop where
  pushed : ∀ x, o.entry = some x → ∃ n, PushedN os n o.handle x
  own : o.operation ≠ .pop → ∃ x, o.entry = some x ∧ PushedN os o.node o.handle x
  asked : o.operation = .pop → ∃ m, CameN os o.node m ∧ Asks m o.handle

/-- The message a handler has sent. -/
def OutOf (c : Call) (o : Out) : Prop :=
  match c.pc with
  | .push it => o = waiting it
  | .pop it => ∃ last, o = ⟨c.node, last, .pop, it.handle, some it.data⟩
  | _ => True

/-- A heartbeat of the entry. -/
def BeatOf (it : Item) (o : Out) : Prop := ∃ op, op ≠ .pop ∧ o = ⟨it.node, false, op, it.handle, some it.data⟩

/-- Why a heartbeat has ended. -/
def Stopped (os : List ToNode.Op) (it : Item) : Prop :=
  (∃ n last cmd, (⟨n, last, .pop, it.handle, some it.data⟩ : Out).msg = .ok cmd ∧ AckedN os n cmd) ∨
  ∃ o, BeatOf it o ∧ ∃ d ∈ (ToNode.run ToNode.init os).calls, d.node = it.node ∧ o.msg = .ok d.cmd ∧ ∃ e, d.pc = .done (.error e)

structure Good (os : List ToNode.Op) (s : State) : Prop where
  net : s.net = ToNode.run ToNode.init os
  mail : ∃ ms, s.mail = Mailbox.run Mailbox.fresh ms
  came : ∀ (i : Nat) (c : Call), s.mail.calls[i]? = some c → CameN os c.node c.msg
  sent : ∀ src o, .sent src o ∈ s.mail.log → (∃ k, SentN os k o) ∧ Fine os o
  waits : ∀ (i : Nat) (c : Call), s.mail.calls[i]? = some c → c.pc ≠ .done → ∃ k o, latest s.sends (.call i) = some k ∧ SentN os k o ∧ OutOf c o
  facts : ∀ (j : Nat) (b : Beat), s.mail.beats[j]? = some b → Facts os b.item
  sending : ∀ (j : Nat) (b : Beat), s.mail.beats[j]? = some b → b.pc = .sending → ∃ k o, latest s.sends (.beat j) = some k ∧ SentN os k o ∧ BeatOf b.item o
  ended : ∀ (j : Nat) (b : Beat), s.mail.beats[j]? = some b → b.pc = .ended → Stopped os b.item

theorem PushedN.mono {os : List ToNode.Op} {n : Nat} {h : Int} {x : List UInt8} (hp : PushedN os n h x) (l : List ToNode.Op) : PushedN (os ++ l) n h x := by
  obtain ⟨m, h1, h2⟩ := hp
  exact ⟨m, h1.mono l, h2⟩

theorem Facts.mono {os : List ToNode.Op} {it : Item} (h : Facts os it) (l : List ToNode.Op) : Facts (os ++ l) it := by
  obtain ⟨h1, cmd, h2, h3⟩ := h
  exact ⟨h1.mono l, cmd, h2, h3.mono l⟩

theorem Fine.mono {os : List ToNode.Op} {o : Out} (h : Fine os o) (l : List ToNode.Op) : Fine (os ++ l) o := by
  refine ⟨fun x hx => ?_, fun ho => ?_, fun ho => ?_⟩
  · obtain ⟨n, hn⟩ := h.pushed x hx; exact ⟨n, hn.mono l⟩
  · obtain ⟨x, h1, h2⟩ := h.own ho; exact ⟨x, h1, h2.mono l⟩
  · obtain ⟨m, h1, h2⟩ := h.asked ho; exact ⟨m, h1.mono l, h2⟩

theorem Stopped.mono {os : List ToNode.Op} {it : Item} (h : Stopped os it) (l : List ToNode.Op) : Stopped (os ++ l) it := by
  rcases h with ⟨n, last, cmd, h1, h2⟩ | ⟨o, h1, d, h2, h3, h4, e, h5⟩
  · exact .inl ⟨n, last, cmd, h1, h2.mono l⟩
  · refine .inr ⟨o, h1, d, ?_, h3, h4, e, h5⟩
    obtain ⟨k, hk⟩ := List.getElem?_of_mem h2
    rw [run_net_append]
    exact List.mem_of_getElem? (net_done l _ hk h5)

/-- Something happens to the network. -/
theorem Good.grow {os : List ToNode.Op} {s : State} (h : Good os s) (o : ToNode.Op) : Good (os ++ [o]) { s with net := ToNode.step s.net o } where
  net := by rw [run_net_append, ← h.net]; rfl
  mail := h.mail
  came i c hi := (h.came i c hi).mono _
  sent src x hx := by
    obtain ⟨⟨k, h1⟩, h2⟩ := h.sent src x hx
    exact ⟨⟨k, h1.mono _⟩, h2.mono _⟩
  waits i c hi hp := by
    obtain ⟨k, x, h1, h2, h3⟩ := h.waits i c hi hp
    exact ⟨k, x, h1, h2.mono _, h3⟩
  facts j b hb := (h.facts j b hb).mono _
  sending j b hb hp := by
    obtain ⟨k, x, h1, h2, h3⟩ := h.sending j b hb hp
    exact ⟨k, x, h1, h2.mono _, h3⟩
  ended j b hb hp := (h.ended j b hb hp).mono _

theorem Good.inv {os : List ToNode.Op} {s : State} (h : Good os s) : Lemmas.Mailbox.Inv s.mail ∧ Lemmas.Mailbox.BInv s.mail := by
  obtain ⟨ms, e⟩ := h.mail
  rw [e]
  exact ⟨Lemmas.Mailbox.inv_run ms, Lemmas.Mailbox.binv_run ms⟩

theorem mail_snoc {m : Mailbox.State} (h : ∃ ms, m = Mailbox.run Mailbox.fresh ms) (o : Mailbox.Op) : ∃ ms, Mailbox.step m o = Mailbox.run Mailbox.fresh ms := by
  obtain ⟨ms, e⟩ := h
  exact ⟨ms ++ [o], by rw [Lemmas.Mailbox.run_snoc, e]⟩

/-- The mailbox does something without sending. -/
theorem Good.stay {os : List ToNode.Op} {s : State} (h : Good os s) {mail : Mailbox.State} (hm : ∃ ms, mail = Mailbox.run Mailbox.fresh ms) (hi : issue s mail = { s with mail := mail })
    (hl : ∀ src o, .sent src o ∈ mail.log → .sent src o ∈ s.mail.log) (hc : ∀ (i : Nat) (c : Call), mail.calls[i]? = some c → CameN os c.node c.msg ∧ (c.pc ≠ .done → s.mail.calls[i]? = some c))
    (hb : ∀ (j : Nat) (b : Beat), mail.beats[j]? = some b → Facts os b.item ∧ (b.pc = .sending → s.mail.beats[j]? = some b) ∧ (b.pc = .ended → Stopped os b.item)) :
    Good os (issue s mail) := by
  rw [hi]
  exact {
    net := h.net
    mail := hm
    came := fun i c hi => (hc i c hi).1
    sent := fun src o ho => h.sent src o (hl src o ho)
    waits := fun i c hi hp => h.waits i c ((hc i c hi).2 hp) hp
    facts := fun j b hj => (hb j b hj).1
    sending := fun j b hj hp => h.sending j b ((hb j b hj).2.1 hp) hp
    ended := fun j b hj hp => (hb j b hj).2.2 hp }

/-- The mailbox sends. -/
theorem Good.send {os : List ToNode.Op} {s : State} (h : Good os s) {mail : Mailbox.State} {src : Src} {o : Out} (hm : ∃ ms, mail = Mailbox.run Mailbox.fresh ms)
    (hl : mail.log = s.mail.log ++ [.sent src o]) (hf : Fine os o)
    (hc : ∀ (i : Nat) (c : Call), mail.calls[i]? = some c → CameN os c.node c.msg ∧ (c.pc ≠ .done → s.mail.calls[i]? = some c ∧ src ≠ .call i ∨ src = .call i ∧ OutOf c o))
    (hb : ∀ (j : Nat) (b : Beat), mail.beats[j]? = some b → s.mail.beats[j]? = some b ∧ src ≠ .beat j ∨ src = .beat j ∧ b.pc = .sending ∧ BeatOf b.item o ∧ Facts os b.item) :
    ∃ cmd, Good (os ++ [.send o.node cmd 0 0 3]) (issue s mail) := by
  obtain ⟨cmd, h1, h2⟩ := issue_sent hl
  refine ⟨cmd, ?_⟩
  rw [h2]
  have g := h.grow (.send o.node cmd 0 0 3)
  have new : SentN (os ++ [.send o.node cmd 0 0 3]) s.net.calls.length o := ⟨cmd, h1, os, [], by simp, by rw [h.net]⟩
  exact {
    net := g.net
    mail := hm
    came := fun i c hi => (hc i c hi).1.mono _
    sent := fun src' o' ho => by
      rw [hl] at ho
      rcases List.mem_append.1 ho with ho | ho
      · exact g.sent src' o' ho
      · simp only [List.mem_singleton, Ev.sent.injEq] at ho
        obtain ⟨-, rfl⟩ := ho
        exact ⟨⟨_, new⟩, hf.mono _⟩
    waits := fun i c hi hp => by
      rcases (hc i c hi).2 hp with ⟨h3, h4⟩ | ⟨h3, h4⟩
      · obtain ⟨k, x, e1, e2, e3⟩ := g.waits i c h3 hp
        exact ⟨k, x, by rw [latest_other _ _ h4]; exact e1, e2, e3⟩
      · exact ⟨_, o, by rw [h3]; exact latest_self _ _ _, new, h4⟩
    facts := fun j b hj => by
      rcases hb j b hj with ⟨h3, -⟩ | ⟨-, -, -, h3⟩
      · exact g.facts j b h3
      · exact h3.mono _
    sending := fun j b hj hp => by
      rcases hb j b hj with ⟨h3, h4⟩ | ⟨h3, -, h4, -⟩
      · obtain ⟨k, x, e1, e2, e3⟩ := g.sending j b h3 hp
        exact ⟨k, x, by rw [latest_other _ _ h4]; exact e1, e2, e3⟩
      · exact ⟨_, o, by rw [h3]; exact latest_self _ _ _, new, h4⟩
    ended := fun j b hj hp => by
      rcases hb j b hj with ⟨h3, -⟩ | ⟨-, h3, -, -⟩
      · exact g.ended j b h3 hp
      · rw [hp] at h3; cases h3 }

/-- What an operation of the mailbox is for the network: a call of `sendToNode`, or nothing. -/
def Sends (l : List ToNode.Op) : Prop := l = [] ∨ ∃ node cmd, l = [.send node cmd 0 0 3]

theorem Good.recv {os : List ToNode.Op} {s : State} (h : Good os s) {node : Nat} {m : Msg} (hm : CameN os node m) : ∃ l, Sends l ∧ Good (os ++ l) (act s (.received node m)) := by
  obtain ⟨pc, r⟩ := MailNet.recv s.mail node m
  have hmail := mail_snoc h.mail (.received node m)
  have hb' : ∀ (j : Nat) (b : Beat), (Mailbox.received s.mail node m).beats[j]? = some b → s.mail.beats[j]? = some b := fun j b hj => by rw [r.beats] at hj; exact hj
  have hc' : ∀ (i : Nat) (c : Call), (Mailbox.received s.mail node m).calls[i]? = some c → (i ≠ s.mail.calls.length ∧ s.mail.calls[i]? = some c) ∨ (i = s.mail.calls.length ∧ c = ⟨node, m, pc⟩) := by
    intro i c hi
    rw [r.calls] at hi
    rcases Lemmas.Mailbox.getElem?_snoc hi with hi | ⟨h1, h2⟩
    · exact .inl ⟨Nat.ne_of_lt (List.getElem?_eq_some_iff.1 hi).1, hi⟩
    · exact .inr ⟨h1, h2⟩
  have send : ∀ o : Out, (Mailbox.received s.mail node m).log = s.mail.log ++ [.sent (.call s.mail.calls.length) o] → Fine os o → OutOf ⟨node, m, pc⟩ o →
      ∃ l, Sends l ∧ Good (os ++ l) (act s (.received node m)) := by
    intro o hl hf ho
    obtain ⟨cmd, g⟩ := h.send hmail hl hf (fun i c hi => by
      rcases hc' i c hi with ⟨h1, h2⟩ | ⟨h1, h2⟩
      · exact ⟨h.came i c h2, fun _ => .inl ⟨h2, fun e => h1 (Src.call.inj e).symm⟩⟩
      · rw [h1, h2]; exact ⟨hm, fun _ => .inr ⟨rfl, ho⟩⟩) (fun j b hj => .inl ⟨hb' j b hj, fun e => by cases e⟩)
    exact ⟨_, .inr ⟨_, _, rfl⟩, g⟩
  rcases r.log with ⟨hp, x, hl⟩ | ⟨hp, k, ha, hl⟩ | ⟨item, k, last, hp, ha, hi, hl⟩ | ⟨k, x, hp, hx, hl⟩
  · refine ⟨[], .inl rfl, ?_⟩
    rw [List.append_nil]
    refine h.stay hmail (issue_ended hl) (fun src o ho => ?_) (fun i c hi => ?_) (fun j b hj => ⟨h.facts j b (hb' j b hj), fun _ => hb' j b hj, fun hp => h.ended j b (hb' j b hj) hp⟩)
    · have ho' : Ev.sent src o ∈ (Mailbox.received s.mail node m).log := ho
      rw [hl] at ho'
      simpa using ho'
    · rcases hc' i c hi with ⟨-, h2⟩ | ⟨-, h2⟩
      · exact ⟨h.came i c h2, fun _ => h2⟩
      · rw [h2, hp]; exact ⟨hm, fun e => absurd rfl e⟩
  · exact send _ hl ⟨(fun x hx => by cases hx), (fun e => absurd rfl e), fun _ => ⟨m, hm, ha⟩⟩ (by rw [hp]; trivial)
  · obtain ⟨hk, j, b, hj, hbi⟩ := h.inv.2.stored k item hi
    subst hbi hk
    refine send _ hl ⟨fun x hx => ?_, fun e => absurd rfl e, fun _ => ⟨m, hm, ha⟩⟩ (by rw [hp]; exact ⟨last, rfl⟩)
    simp only [Option.some.injEq] at hx
    subst hx
    exact ⟨_, (h.facts j b hj).1⟩
  · have hpu : PushedN os node k x := ⟨m, hm, hx⟩
    refine send _ hl ⟨fun y hy => ?_, fun _ => ⟨x, rfl, hpu⟩, fun e => by cases e⟩ (by rw [hp]; rfl)
    simp only [Option.some.injEq] at hy
    subst hy
    exact ⟨node, hpu⟩

/-- What the awaited call gave. -/
theorem result_some {s : State} {src : Src} {r : Py Bool} (h : result s src = some r) : ∃ k d, latest s.sends src = some k ∧ s.net.calls[k]? = some d ∧ d.pc = .done r := by
  unfold result at h
  split at h
  · cases h
  · rename_i k hk
    split at h
    · cases h
    · rename_i d hd
      split at h
      · rename_i r' hr
        cases h
        exact ⟨k, d, hk, hd, hr⟩
      · cases h

theorem set_call {l : List Call} {i k : Nat} {c d : Call} (hi : l[i]? = some c) (h : (l.set i { c with pc := .done })[k]? = some d) :
    (∃ e, l[k]? = some e ∧ e.node = d.node ∧ e.msg = d.msg) ∧ (d.pc ≠ .done → l[k]? = some d) := by
  rcases Lemmas.Mailbox.getElem?_set' h with ⟨h1, h2, -⟩ | ⟨-, h1⟩
  · rw [h1, h2]
    exact ⟨⟨c, hi, rfl, rfl⟩, fun e => absurd rfl e⟩
  · exact ⟨⟨d, h1, rfl, rfl⟩, fun _ => h1⟩

theorem Good.sendEnds {os : List ToNode.Op} {s : State} (h : Good os s) {i : Nat} {r : Py Bool} (hr : result s (.call i) = some r) : Good os (act s (.sendEnds i r)) := by
  have hmail := mail_snoc h.mail (.sendEnds i r)
  obtain ⟨k, d, hk, hd, hpc⟩ := result_some hr
  rw [h.net] at hd
  -- it has been acknowledged
  have acked : ∀ (c : Call), s.mail.calls[i]? = some c → c.pc ≠ .done → r = .ok true → ∃ o cmd, OutOf c o ∧ o.msg = .ok cmd ∧ AckedN os o.node cmd := by
    intro c hc hp e
    obtain ⟨k', o, h1, h2, h3⟩ := h.waits i c hc hp
    cases Option.some.inj (hk.symm.trans h1)
    subst e
    obtain ⟨cmd, h4, h5⟩ := h2.acked hd hpc
    exact ⟨o, cmd, h3, h4, h5⟩
  have finish : ∀ (c : Call) (mail : Mailbox.State) (x : Py (Option Bool)), s.mail.calls[i]? = some c → mail.log = s.mail.log → mail.calls = s.mail.calls →
      (∃ ms, Mailbox.endCall mail i c x = Mailbox.run Mailbox.fresh ms) →
      (∀ (j : Nat) (b : Beat), mail.beats[j]? = some b → Facts os b.item ∧ (b.pc = .sending → s.mail.beats[j]? = some b) ∧ (b.pc = .ended → Stopped os b.item)) →
      Good os (issue s (Mailbox.endCall mail i c x)) := by
    intro c mail x hc hl hcs hms hb
    have hl' : (Mailbox.endCall mail i c x).log = s.mail.log ++ [.ended i c.msg x] := by simp only [Mailbox.endCall, hl]
    refine h.stay hms (issue_ended hl') (fun src o ho => ?_) (fun k c' hk' => ?_) hb
    · rw [hl'] at ho
      simpa using ho
    · simp only [Mailbox.endCall, hcs] at hk'
      obtain ⟨⟨e, e1, e2, e3⟩, h2⟩ := set_call hc hk'
      refine ⟨?_, h2⟩
      rw [← e2, ← e3]
      exact h.came k e e1
  have old : ∀ (j : Nat) (b : Beat), s.mail.beats[j]? = some b → Facts os b.item ∧ (b.pc = .sending → s.mail.beats[j]? = some b) ∧ (b.pc = .ended → Stopped os b.item) :=
    fun j b hj => ⟨h.facts j b hj, fun _ => hj, fun hp => h.ended j b hj hp⟩
  have same : Good os (issue s s.mail) := h.stay h.mail (issue_same rfl) (fun _ _ ho => ho) (fun k c hk => ⟨h.came k c hk, fun _ => hk⟩) old
  unfold act
  simp only [Mailbox.step, Mailbox.sendEnds] at hmail ⊢
  cases hc : s.mail.calls[i]? with
  | none => exact same
  | some c =>
    simp only [hc] at hmail ⊢
    cases hp : c.pc with
    | done => exact same
    | popEmpty => simp only [hp] at hmail ⊢; exact finish c s.mail _ hc rfl rfl hmail old
    | pop item =>
      simp only [hp] at hmail ⊢
      cases r with
      | error e => exact finish c s.mail _ hc rfl rfl hmail old
      | ok b =>
        cases b with
        | false => exact finish c s.mail _ hc rfl rfl hmail old
        | true =>
          simp only [if_true] at hmail ⊢
          refine finish c _ _ hc (by rfl) (by rfl) hmail fun j b hj => ?_
          simp only [Mailbox.stop, List.getElem?_map, Option.map_eq_some_iff] at hj
          obtain ⟨b', h1, h2⟩ := hj
          split at h2
          · rename_i hid
            subst h2
            refine ⟨h.facts j b' h1, (fun e => by cases e), fun _ => ?_⟩
            obtain ⟨-, j', b'', h4, h5⟩ := h.inv.2.popped i c item hc hp
            have hj' := h.inv.2.ids j j' b' b'' h1 h4 (by rw [hid, h5])
            subst hj'
            cases Option.some.inj (h1.symm.trans h4)
            obtain ⟨o, cmd, h6, h7, h8⟩ := acked c hc (by rw [hp]; exact fun e => by cases e) rfl
            simp only [OutOf, hp] at h6
            obtain ⟨last, rfl⟩ := h6
            rw [← h5] at h7
            exact .inl ⟨c.node, last, cmd, h7, h8⟩
          · subst h2; exact old j b' h1
    | push item =>
      simp only [hp] at hmail ⊢
      cases r with
      | error e => exact finish c s.mail _ hc rfl rfl hmail old
      | ok b =>
        cases b with
        | false => exact finish c s.mail _ hc rfl rfl hmail old
        | true =>
          simp only [if_true] at hmail ⊢
          refine finish c _ _ hc (by rfl) (by rfl) hmail fun j b hj => ?_
          rcases Lemmas.Mailbox.getElem?_snoc hj with hj | ⟨-, rfl⟩
          · exact old j b hj
          · refine ⟨?_, (fun e => by cases e), (fun e => by cases e)⟩
            have hok := h.inv.1.calls i c hc
            simp only [Lemmas.Mailbox.CallOk, hp] at hok
            obtain ⟨k1, -, k3⟩ := hok
            obtain ⟨o, cmd, h6, h7, h8⟩ := acked c hc (by rw [hp]; exact fun e => by cases e) rfl
            simp only [OutOf, hp] at h6
            subst h6
            refine ⟨⟨c.msg, ?_, k1⟩, cmd, h7, h8⟩
            rw [k3]
            exact h.came i c hc

theorem Good.same {os : List ToNode.Op} {s : State} (h : Good os s) : Good os (issue s s.mail) :=
  h.stay h.mail (issue_same rfl) (fun _ _ ho => ho) (fun k c hk => ⟨h.came k c hk, fun _ => hk⟩) (fun j b hj => ⟨h.facts j b hj, fun _ => hj, fun hp => h.ended j b hj hp⟩)

theorem Good.tick {os : List ToNode.Op} {s : State} (h : Good os s) (j : Nat) : ∃ l, Sends l ∧ Good (os ++ l) (act s (.tick j)) := by
  have hmail := mail_snoc h.mail (.tick j)
  unfold act
  simp only [Mailbox.step] at hmail ⊢
  split
  · rename_i item n hj
    simp only [hj] at hmail
    obtain ⟨x1, x2⟩ := h.facts j _ hj
    obtain ⟨cmd, g⟩ := h.send (src := .beat j) (o := ⟨item.node, false, if (n + 1) % 10 = 0 then .ping else .waiting, item.handle, some item.data⟩) hmail rfl
      ⟨fun x hx => (by simp only [Option.some.injEq] at hx; subst hx; exact ⟨_, x1⟩), fun _ => ⟨_, rfl, x1⟩, fun e => (by dsimp only at e; split at e <;> cases e)⟩
      (fun i c hi => ⟨h.came i c hi, fun _ => .inl ⟨hi, fun e => by cases e⟩⟩)
      (fun k b hk => by
        rcases Lemmas.Mailbox.getElem?_set' hk with ⟨rfl, rfl, -⟩ | ⟨h1, h2⟩
        · exact .inr ⟨rfl, rfl, ⟨if (n + 1) % 10 = 0 then .ping else .waiting, (by split <;> (intro e; cases e)), rfl⟩, x1, x2⟩
        · exact .inl ⟨h2, fun e => h1 (Src.beat.inj e).symm⟩)
    exact ⟨_, .inr ⟨_, _, rfl⟩, g⟩
  · exact ⟨[], .inl rfl, by rw [List.append_nil]; exact h.same⟩

theorem Good.beatEnds {os : List ToNode.Op} {s : State} (h : Good os s) {j : Nat} {r : Py Bool} (hr : result s (.beat j) = some r) : Good os (act s (.beatEnds j r)) := by
  have hmail := mail_snoc h.mail (.beatEnds j r)
  obtain ⟨k, d, hk, hd, hpc⟩ := result_some hr
  rw [h.net] at hd
  unfold act
  simp only [Mailbox.step] at hmail ⊢
  split
  · rename_i item n hj
    simp only [hj] at hmail
    refine h.stay hmail (issue_same rfl) (fun _ _ ho => ho) (fun k c hk => ⟨h.came k c hk, fun _ => hk⟩) (fun i b hi => ?_)
    rcases Lemmas.Mailbox.getElem?_set' hi with ⟨rfl, rfl, -⟩ | ⟨-, h1⟩
    · have hf := h.facts i _ hj
      refine ⟨hf, fun e => ?_, fun e => ?_⟩
      · cases r <;> cases e
      · cases r with
        | ok b => cases e
        | error x =>
          obtain ⟨k', o, h1, h2, h3⟩ := h.sending i _ hj rfl
          cases Option.some.inj (hk.symm.trans h1)
          obtain ⟨d', cmd, h4, h5, h6, h7, -⟩ := h2.call
          cases Option.some.inj (hd.symm.trans h4)
          refine .inr ⟨o, h3, d, List.mem_of_getElem? hd, ?_, by rw [h5, h7], x, hpc⟩
          obtain ⟨op, -, ho⟩ := h3
          rw [h6, ho]
    · exact ⟨h.facts i b h1, fun _ => h1, fun hp => h.ended i b h1 hp⟩
  · exact h.same

theorem Good.receive {os : List ToNode.Op} {s : State} (h : Good os s) (l : List Nat) : Good os { s with received := l } :=
  ⟨h.net, h.mail, h.came, h.sent, h.waits, h.facts, h.sending, h.ended⟩

/-- What an operation is for the network. -/
theorem Good.step {os : List ToNode.Op} {s : State} (h : Good os s) (o : Op) : ∃ l, (Sends l ∧ (∀ x, o ≠ .net x) ∨ ∃ x, o = .net x ∧ l = [x]) ∧ Good (os ++ l) (step s o) := by
  have none : (∀ x, o ≠ .net x) → Good os (MailNet.step s o) → ∃ l, (Sends l ∧ (∀ x, o ≠ .net x) ∨ ∃ x, o = .net x ∧ l = [x]) ∧ Good (os ++ l) (MailNet.step s o) :=
    fun ho g => ⟨[], .inl ⟨.inl rfl, ho⟩, by rw [List.append_nil]; exact g⟩
  have some : (∀ x, o ≠ .net x) → (∃ l, Sends l ∧ Good (os ++ l) (MailNet.step s o)) → ∃ l, (Sends l ∧ (∀ x, o ≠ .net x) ∨ ∃ x, o = .net x ∧ l = [x]) ∧ Good (os ++ l) (MailNet.step s o) :=
    fun ho ⟨l, h1, g⟩ => ⟨l, .inl ⟨h1, ho⟩, g⟩
  cases o with
  | net o => exact ⟨[o], .inr ⟨o, rfl, rfl⟩, h.grow o⟩
  | wake j => exact some (fun x e => by cases e) (h.tick j)
  | proceed src =>
    cases src with
    | call i =>
      refine none (fun x e => by cases e) ?_
      simp only [MailNet.step]
      cases hr : result s (.call i) with
      | none => exact h
      | some r => exact h.sendEnds hr
    | beat j =>
      refine none (fun x e => by cases e) ?_
      simp only [MailNet.step]
      cases hr : result s (.beat j) with
      | none => exact h
      | some r => exact h.beatEnds hr
  | deliver i =>
    refine some (fun x e => by cases e) ?_
    simp only [MailNet.step]
    split
    · exact ⟨[], .inl rfl, by rw [List.append_nil]; exact h⟩
    · split
      · exact ⟨[], .inl rfl, by rw [List.append_nil]; exact h⟩
      · rename_i t ht
        split
        · exact ⟨[], .inl rfl, by rw [List.append_nil]; exact h.receive _⟩
        · rename_i m hm
          refine (h.receive _).recv ?_
          rw [h.net] at ht
          exact ToNode.heardFrom os i t ht t.node m ⟨rfl, hm⟩

theorem good_init : Good [] init where
  net := rfl
  mail := ⟨[], rfl⟩
  came i c h := by simp [init, Mailbox.fresh] at h
  sent src o h := by simp [init, Mailbox.fresh] at h
  waits i c h := by simp [init, Mailbox.fresh] at h
  facts j b h := by simp [init, Mailbox.fresh] at h
  sending j b h := by simp [init, Mailbox.fresh] at h
  ended j b h := by simp [init, Mailbox.fresh] at h

theorem run_snoc (s : State) (l : List Op) (o : Op) : run s (l ++ [o]) = step (run s l) o := by simp [run]

theorem run_append (s : State) (l l' : List Op) : run s (l ++ l') = run (run s l) l' := by simp [run]

/-- Everything that is known after a schedule. The datagrams of the network are those of the schedule. -/
theorem whole (ops : List Op) : ∃ os, Good os (run init ops) ∧
    ∀ g x y, os = x ++ .gw g :: y → ∃ before later, ops = before ++ .net (.gw g) :: later ∧ (run init before).net = ToNode.run ToNode.init x := by
  induction ops using Conn.snoc_ind with
  | nil => exact ⟨[], good_init, fun g x y e => absurd (congrArg List.length e) (by simp)⟩
  | snoc ops o ih =>
    obtain ⟨os, h1, h2⟩ := ih
    obtain ⟨l, h3, h4⟩ := h1.step o
    refine ⟨os ++ l, by rw [run_snoc]; exact h4, fun g x y e => ?_⟩
    rcases List.append_eq_append_iff.1 e with ⟨z, z1, z2⟩ | ⟨z, z1, z2⟩
    · -- it is the latest one
      rcases h3 with ⟨h3 | ⟨node, cmd, h3⟩, -⟩ | ⟨w, rfl, h3⟩
      · rw [h3] at z2; exact absurd (congrArg List.length z2) (by simp)
      · rw [h3] at z2
        cases z with
        | nil => simp at z2
        | cons a z => exact absurd (congrArg List.length z2) (by simp)
      · rw [h3] at z2
        cases z with
        | nil =>
          simp only [List.nil_append, List.cons.injEq] at z2
          obtain ⟨rfl, -⟩ := z2
          refine ⟨ops, [], rfl, ?_⟩
          rw [h1.net, z1, List.append_nil]
        | cons a z => exact absurd (congrArg List.length z2) (by simp)
    · cases z with
      | nil =>
        simp only [List.nil_append, List.append_nil] at z1 z2
        rcases h3 with ⟨h3 | ⟨node, cmd, h3⟩, -⟩ | ⟨w, rfl, h3⟩
        · rw [h3] at z2; cases z2
        · rw [h3] at z2; simp at z2
        · rw [h3] at z2
          simp only [List.cons.injEq] at z2
          obtain ⟨rfl, -⟩ := z2
          exact ⟨ops, [], rfl, by rw [h1.net, z1]⟩
      | cons a z =>
        simp only [List.cons_append, List.cons.injEq] at z2
        obtain ⟨rfl, z2⟩ := z2
        obtain ⟨before, later, b1, b2⟩ := h2 g x z z1
        exact ⟨before, later ++ [o], by rw [b1]; simp, b2⟩

end Model.MailNet

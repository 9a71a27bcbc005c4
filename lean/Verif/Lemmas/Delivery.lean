import Verif.Lemmas.Fresh
import Verif.Lemmas.NodeLinks
/-! Helper lemmas: the messages seen by waiting calls come from packets. -/
namespace Model
open Spec

/-- The message a packet delivers to the callers waiting on a connection. -/
def Delivers (b : Bytes) (m : Msg) : Prop := ∃ p, decode b = .ok p ∧ (if p.hid = 0x2302 then p.command else some p) = some m

/-- The waiting calls change by a sequence of operations in which all messages satisfy `Q`. -/
def WaiterEvo (Q : Msg → Prop) (w w' : Waiter.State) : Prop := ∃ ws, w' = Waiter.run w ws ∧ ∀ m, .message m ∈ ws → Q m

theorem WaiterEvo.refl (Q : Msg → Prop) (w : Waiter.State) : WaiterEvo Q w w := ⟨[], rfl, by simp⟩

theorem WaiterEvo.trans {Q : Msg → Prop} {a b c : Waiter.State} (h1 : WaiterEvo Q a b) (h2 : WaiterEvo Q b c) : WaiterEvo Q a c := by
  obtain ⟨w1, rfl, g1⟩ := h1
  obtain ⟨w2, rfl, g2⟩ := h2
  refine ⟨w1 ++ w2, (Waiter.run_append _ _ _).symm, fun m hm => ?_⟩
  rcases List.mem_append.mp hm with hm | hm
  · exact g1 m hm
  · exact g2 m hm

theorem WaiterEvo.one {Q : Msg → Prop} (w : Waiter.State) (o : Waiter.Op) (h : ∀ m, o = .message m → Q m) : WaiterEvo Q w (Waiter.step w o) :=
  ⟨[o], rfl, fun m hm => h m (List.mem_singleton.mp hm).symm⟩

theorem WaiterEvo.of_eq {Q : Msg → Prop} {a b : Waiter.State} (h : b = a) : WaiterEvo Q a b := h ▸ .refl Q a

namespace Conn

theorem ackReceived_w (s : State) (p : Msg) : (ackReceived s p).1.w = s.w := by
  unfold ackReceived
  repeat' split
  all_goals first | rfl | (simp_all; done)

theorem commandReceived_w (s : State) (cmd : Msg) :
    (commandReceived s cmd).1.w = s.w ∨ ∃ m, (if cmd.hid = 0x2302 then cmd.command else some cmd) = some m ∧ (commandReceived s cmd).1.w = Waiter.step s.w (.message m) := by
  unfold commandReceived
  split
  · exact .inl rfl
  · rename_i m hm
    refine .inr ⟨m, hm, ?_⟩
    simp only [Waiter.step]
    split <;> (rename_i h; rw [h])

theorem onPacket_w (s : State) (b : Bytes) : WaiterEvo (Delivers b) s.w (onPacket s b).1.w := by
  have hack : ∀ p : Msg, (match ackReceived s p with
        | (s, .ok _) => (s, Except.ok true)
        | (s, .error e) => (s, Except.error e) : State × Py Bool).1.w = s.w := by
    intro p
    have := ackReceived_w s p
    split <;> (rename_i h; rw [h] at this; exact this)
  have hcmd : ∀ p : Msg, decode b = .ok p → WaiterEvo (Delivers b) s.w (match commandReceived s p with
        | (s, .ok _) => (s, Except.ok true)
        | (s, .error e) => (s, Except.error e) : State × Py Bool).1.w := by
    intro p hp
    have : WaiterEvo (Delivers b) s.w (commandReceived s p).1.w := by
      rcases commandReceived_w s p with h | ⟨m, h1, h2⟩
      · exact .of_eq h
      · rw [h2]; exact .one _ _ (fun m' e => by cases e; exact ⟨p, hp, h1⟩)
    split <;> (rename_i h; rw [h] at this; exact this)
  unfold onPacket
  split
  · exact .refl _ _
  · rename_i p hp
    split
    · split
      · exact .of_eq (hack p)
      · split
        · split
          · exact .of_eq (hack p)
          · exact .refl _ _
        · split
          · exact .refl _ _
          · split
            · exact hcmd p hp
            · exact .refl _ _
    · split
      · exact .refl _ _
      · split
        · exact hcmd p hp
        · exact .refl _ _

theorem step_w (s : State) (o : Op) : WaiterEvo (fun m => ∃ b, o = .packet b ∧ Delivers b m) s.w (step s o).w := by
  cases o with
  | connect => exact .refl _ _
  | send cmd src dst timeout => exact .of_eq (send_frame s cmd src dst timeout).2
  | packet b =>
    obtain ⟨ws, h1, h2⟩ := onPacket_w s b
    exact ⟨ws, h1, fun m hm => ⟨b, rfl, h2 m hm⟩⟩
  | tick => exact .one s.w .tick (fun _ e => by cases e)
  | timer i => simp only [step]; split; · exact .refl _ _
               · split <;> exact .refl _ _
  | resume i =>
    simp only [step]
    split
    · exact .refl _ _
    · split
      · split <;> exact .refl _ _
      · split <;> exact .refl _ _
  | cancelled i =>
    simp only [step]
    split
    · exact .refl _ _
    · split
      · split <;> exact .refl _ _
      · exact .refl _ _
  | kill i => simp only [step]; split; · exact .refl _ _
              · split <;> exact .refl _ _
  | fire k =>
    simp only [step]
    split
    · exact .refl _ _
    · split
      · exact .of_eq (keepAlive_sends _ _).2.2.2
      · exact .refl _ _
  | waiter o =>
    simp only [step]
    split
    · exact .refl _ _
    · exact .refl _ _
    · rename_i h1 h2
      exact .one _ _ (fun m e => absurd e (h1 m))

end Conn

namespace Gateway

theorem afterSend_w (s : State) (c : Conn.State) (k : Nat) : (afterSend s c k).1.conn.w = c.w := by
  unfold afterSend; split <;> rfl

theorem startSend_w {Q : Msg → Prop} (s : State) (cmd : Msg) : WaiterEvo Q s.conn.w (startSend s cmd).1.conn.w := by
  apply WaiterEvo.of_eq
  rw [startSend, afterSend_w]
  exact (Conn.send_frame _ _ _ _ _).2

theorem afterAskSend_w {Q : Msg → Prop} (s : State) (a : Ask) (t : Nat) (c : Conn.State) (k : Nat) : WaiterEvo Q c.w (afterAskSend s a t c k).1.conn.w := by
  unfold afterAskSend
  split
  · rename_i e _
    exact .one c.w (.sendRaise t e) (fun _ e => by cases e)
  · exact .refl _ _

theorem startAsk_w {Q : Msg → Prop} (s : State) (a : Ask) (cmd : Msg) (hid timeout : Nat) : WaiterEvo Q s.conn.w (startAsk s a cmd hid timeout).1.conn.w := by
  unfold startAsk
  refine WaiterEvo.trans ?_ (afterAskSend_w _ _ _ _ _)
  rw [(Conn.send_frame _ _ _ _ _).2]
  exact .one s.conn.w (.call .adapter hid timeout) (fun _ e => by cases e)

theorem startNm_w {Q : Msg → Prop} (s : State) (c : Nm) : WaiterEvo Q s.conn.w (startNm s c).1.conn.w := by
  simp only [startNm]
  split
  · exact .refl _ _
  · split
    · exact .refl _ _
    · split
      · exact startSend_w { s with nmSeq := s.nmSeq + 1 } _
      · exact startAsk_w { s with nmSeq := s.nmSeq + 1 } _ _ _ _

theorem ipOfNode_w {Q : Msg → Prop} (s : State) (n : Nat) : WaiterEvo Q s.conn.w (ipOfNode s n).1.conn.w := by
  unfold ipOfNode lookup
  split
  · exact .refl _ _
  · rename_i b _
    have := (Conn.transmit_sends s.conn b).2.2.2.1
    simp only [this]
    exact .one s.conn.w (.call .plain 0x5801 3) (fun _ e => by cases e)

theorem reportLoop_w {Q : Msg → Prop} (todo : List Nat) : ∀ s, WaiterEvo Q s.conn.w (reportLoop s todo).1.conn.w := by
  induction todo with
  | nil => intro s; exact .refl _ _
  | cons n todo ih =>
    intro s
    simp only [reportLoop]
    split
    · exact ih s
    · have := ipOfNode_w (Q := Q) s n
      split <;> (rename_i h; rw [h] at this; exact this)

theorem setupLoop_w {Q : Msg → Prop} (todo : List Nat) : ∀ s, WaiterEvo Q s.conn.w (setupLoop s todo).1.conn.w := by
  induction todo with
  | nil => intro s; exact .refl _ _
  | cons n todo ih =>
    intro s
    simp only [setupLoop]
    split
    · exact .refl _ _
    · exact ih s
    · have := ipOfNode_w (Q := Q) s n
      split <;> (rename_i h; rw [h] at this; exact this)

theorem handle_w {Q : Msg → Prop} (s : State) (m : Msg) (order : List Nat) : WaiterEvo Q s.conn.w (handleNodeListReport s m order).1.conn.w := by
  simp only [handleNodeListReport]
  split
  · exact .refl _ _
  · rename_i l _
    exact reportLoop_w (iter l order) { s with nodes := s.nodes.filter (fun p => p.1 ∈ l) }

theorem connectToNode_w {Q : Msg → Prop} (s : State) (n : Nat) : WaiterEvo Q s.conn.w (Gateway.connectToNode s n).1.conn.w := by
  simp only [Gateway.connectToNode]
  split
  · exact .refl _ _
  · have := ipOfNode_w (Q := Q) s n
    split <;> (rename_i h; rw [h] at this; exact this)

theorem afterAsk_w {Q : Msg → Prop} (s : State) (a : Ask) (r : Py Msg) (order : List Nat) : WaiterEvo Q s.conn.w (afterAsk s a r order).1.conn.w := by
  unfold afterAsk
  split
  · exact .refl _ _
  · exact .refl _ _
  · rename_i m
    obtain ⟨i, n, r, h⟩ := storeList_frame s m
    rw [h]
    cases r <;> exact .refl _ _
  · exact .refl _ _
  · rename_i m
    obtain ⟨i, n, r, h⟩ := storeList_frame s m
    rw [h]
    cases r with
    | error e => exact .refl _ _
    | ok l => exact setupLoop_w (iter l order) { s with nodeId := i, nodes := n }
  · exact .refl _ _
  · split
    · exact .refl _ _
    · split
      · exact .refl _ _
      · exact startSend_w _ _
  · exact .refl _ _
  · exact .refl _ _

theorem stepJob_w {Q : Msg → Prop} (s : State) (i : Nat) (order : List Nat) : WaiterEvo Q s.conn.w (stepJob s i order).conn.w := by
  simp only [stepJob]
  split
  · exact .refl _ _
  · split <;> exact .refl _ _
  · split
    · exact afterAsk_w _ _ _ _
    · split
      · exact .refl _ _
      · exact .one s.conn.w (.sendDone _ _) (fun _ e => by cases e)
      · exact .one s.conn.w (.sendRaise _ _) (fun _ e => by cases e)
  · split
    · exact .refl _ _
    · exact .refl _ _
    · rename_i _ n todo t _ _ m _
      exact reportLoop_w todo { s with nodes := s.nodes.set n (advertised m) }
  · split
    · exact .refl _ _
    · exact .refl _ _
    · rename_i _ n todo t _ _ m _
      exact setupLoop_w todo { s with nodes := s.nodes.set n (advertised m) }
  · split
    · exact .refl _ _
    · exact .refl _ _
    · split <;> exact .refl _ _
  · exact .refl _ _
  · exact .refl _ _

/-- The waiting calls of the gateway see only messages that arrive in packets. -/
theorem step_w (s : State) (op : Op) : WaiterEvo (fun m => ∃ b, op = .conn (.packet b) ∧ Delivers b m) s.conn.w (step s op).conn.w := by
  cases op with
  | nm c => simp only [step, State.addJob]; exact startNm_w s c
  | setMode mode => simp only [step, State.addJob]; exact startAsk_w s _ _ _ _
  | setup order =>
    simp only [step]
    split
    · exact setupLoop_w _ _
    · split
      · exact .refl _ _
      · simp only [State.addJob]; exact startAsk_w { s with nmSeq := s.nmSeq + 1 } _ _ _ _
  | connectToNode n => simp only [step, State.addJob]; exact connectToNode_w s n
  | opened i ok =>
    simp only [step]
    split
    · split <;> exact .refl _ _
    · exact .refl _ _
  | unsolicited pkt sender order =>
    simp only [step, onUnsolicitedMessage]
    split
    · exact .refl _ _
    · split
      · exact handle_w _ _ _
      · split
        · exact .refl _ _
        · split
          · split
            · split <;> exact .refl _ _
            · exact .refl _ _
          · exact .refl _ _
  | job i order => exact stepJob_w s i order
  | conn o =>
    simp only [step]
    split
    · obtain ⟨ws, h1, h2⟩ := Conn.step_w s.conn o
      refine ⟨ws, h1, fun m hm => ?_⟩
      obtain ⟨b, rfl, h3⟩ := h2 m hm
      exact ⟨b, rfl, h3⟩
    · exact .refl _ _
  | link k o =>
    simp only [step]
    split
    · exact .refl _ _
    · rename_i l _
      obtain ⟨t, h⟩ := onMessageReceived_frame k ((Conn.step l.conn o).heard.drop l.conn.heard.length)
        { s with links := s.links.set k ({ l with conn := Conn.step l.conn o } : Link) }
      rw [h]; exact .refl _ _

/-- Waiting calls in a reachable state. -/
theorem run_waiter (ops : List Op) : ∃ ws, (run init ops).conn.w = Waiter.run Waiter.init ws := by
  refine Conn.snoc_ind (P := fun ops => ∃ ws, (run init ops).conn.w = Waiter.run Waiter.init ws) ⟨[], rfl⟩ ?_ ops
  intro ops op ⟨ws, h⟩
  obtain ⟨ws', h', -⟩ := step_w (run init ops) op
  exact ⟨ws ++ ws', by rw [run_snoc, h', h, Waiter.run_append]⟩

/-- The message a call waiting since `s` returns arrived in a packet since. -/
theorem run_prov (P : Msg → Prop) (h i : Nat) : ∀ (ops : List Op) (s : State) (tag : Nat → Nat), Waiter.Inv tag s.conn.w → Waiter.Prov P h i s.conn.w →
    (∀ b m, .conn (.packet b) ∈ ops → Delivers b m → P m) → ∃ tag', Waiter.Inv tag' (run s ops).conn.w ∧ Waiter.Prov P h i (run s ops).conn.w := by
  intro ops
  induction ops with
  | nil => intro s tag h1 h2 _; exact ⟨tag, h1, h2⟩
  | cons op ops ih =>
    intro s tag h1 h2 h3
    obtain ⟨ws, e, hq⟩ := step_w s op
    obtain ⟨tag', g1⟩ := h1.run ws
    have g2 := h2.run ws h1 (fun m hm => by obtain ⟨b, rfl, hd⟩ := hq m hm; exact h3 b m (.head _) hd)
    rw [← e] at g1 g2
    exact ih _ tag' g1 g2 (fun b m hb => h3 b m (.tail _ hb))

theorem addr_keep (s : State) (op : Op) (k : Nat) (a : Bytes) (h : (s.links.map Link.address)[k]? = some a) :
    ((Gateway.step s op).links.map Link.address)[k]? = some a := by
  cases step_linkEffect s op with
  | quiet hc hl hj ho ha => rw [ha]; exact h
  | start m j ho hc hl hjs hj => rw [hl]; exact h
  | create i m t l hx hn hc hl hj ho =>
    rw [hl, List.map_append, List.getElem?_append_left (List.getElem?_eq_some_iff.mp h).1]
    exact h
  | fail i m x e hx hn hc hl hj ho => rw [hl]; exact h
  | opened i m v hx hc hl hj ho ha => rw [ha]; exact h

/-- The coroutine `i` is looking up the node `n` and will get a message satisfying `P`, or has created a connection to an address from such a message, or has failed. -/
def LookupCall (P : Msg → Prop) (n i : Nat) (s : State) : Prop :=
  ∃ x, s.jobs[i]? = some x ∧ ((∃ t, x = .connect n t ∧ Waiter.Prov P 0x5801 t s.conn.w) ∨ (∃ e, x = .done (.error e)) ∨
    ∃ k a m, (x = .opening n k ∨ x = .done (.ok (.conn k))) ∧ (s.links.map Link.address)[k]? = some a ∧ P m ∧ m.hid = 0x5801 ∧ advertised m = some a)

theorem LookupCall.step {P : Msg → Prop} {n i : Nat} {s : State} (h : LookupCall P n i s) {tag : Nat → Nat} (hi : Waiter.Inv tag s.conn.w) (op : Op)
    (hop : ∀ b m, op = .conn (.packet b) → Delivers b m → P m) : LookupCall P n i (Gateway.step s op) := by
  obtain ⟨x, hx, hc⟩ := h
  have hlen := (List.getElem?_eq_some_iff.mp hx).1
  have hprov : ∀ t, Waiter.Prov P 0x5801 t s.conn.w → Waiter.Prov P 0x5801 t (Gateway.step s op).conn.w := by
    intro t ht
    obtain ⟨ws, e, hq⟩ := step_w s op
    rw [e]
    exact ht.run ws hi (fun m hm => by obtain ⟨b, rfl, hd⟩ := hq m hm; exact hop b m rfl hd)
  have keep : (Gateway.step s op).jobs[i]? = some x → LookupCall P n i (Gateway.step s op) := by
    intro hx'
    refine ⟨x, hx', ?_⟩
    rcases hc with ⟨t, rfl, ht⟩ | hc | ⟨k, a, m, h1, h2, h3, h4, h5⟩
    · exact .inl ⟨t, rfl, hprov t ht⟩
    · exact .inr (.inl hc)
    · exact .inr (.inr ⟨k, a, m, h1, addr_keep s op k a h2, h3, h4, h5⟩)
  have other : ∀ (m : Nat) (j : Job), m ≠ i → (Gateway.step s op).jobs = s.jobs.set m j → LookupCall P n i (Gateway.step s op) := by
    intro m j hm e
    exact keep (by rw [e, List.getElem?_set_ne hm]; exact hx)
  cases step_linkEffect s op with
  | quiet hcc hl hj ho ha =>
    rcases hj with hj | ⟨j, hj, -⟩ | ⟨m, y, j, g1, g2, g3, hj, -⟩
    · exact keep (by rw [hj]; exact hx)
    · exact keep (by rw [hj, List.getElem?_append_left hlen]; exact hx)
    · refine other m j ?_ hj
      rintro rfl
      rw [hx] at g1; cases g1
      rcases hc with ⟨t, rfl, -⟩ | ⟨e, rfl⟩ | ⟨k, a, m, rfl | rfl, -⟩
      · cases g2
      · cases g3
      · cases g2
      · cases g3
  | start m j ho hcc hl hjs hj => exact keep (by rw [hjs, List.getElem?_append_left hlen]; exact hx)
  | create a m t l hx' hn' hcc hl hj ho msg hm ha =>
    by_cases e : a = i
    · subst e
      rw [hx] at hx'; cases hx'
      rcases hc with ⟨t', h1, ht⟩ | ⟨e, h1⟩ | ⟨k, a, m, h1 | h1, -⟩
      · cases h1
        refine ⟨.opening n s.links.length, by rw [hj, List.getElem?_set_self hlen], .inr (.inr ⟨s.links.length, l.address, msg, .inl rfl, ?_, ?_, ?_, ha⟩)⟩
        · rw [hl]; simp
        · obtain ⟨u, hu, -, -, h2⟩ := ht
          apply h2
          simp only [taskDone, hu] at hm
          split at hm
          · rename_i r hr; cases hm; exact hr
          · cases hm
        · obtain ⟨u, hu, hh, -, -⟩ := ht
          simp only [taskDone, hu] at hm
          split at hm
          · rename_i r hr; cases hm
            rw [← hh]
            exact hi.done t u msg hu hr
          · cases hm
      · cases h1
      · cases h1
      · cases h1
    · exact other a _ e hj
  | fail a m y e hx' hn' hcc hl hj ho =>
    by_cases e : a = i
    · subst e
      exact ⟨_, by rw [hj, List.getElem?_set_self hlen], .inr (.inl ⟨_, rfl⟩)⟩
    · exact other a _ e hj
  | opened a m v hx' hcc hl hj ho ha =>
    by_cases e : a = i
    · subst e
      rw [hx] at hx'; cases hx'
      rcases hc with ⟨t', h1, ht⟩ | ⟨e, h1⟩ | ⟨k, b, msg, h1 | h1, h2, h3, h4, h5⟩
      · cases h1
      · cases h1
      · cases h1
        exact ⟨_, by rw [hj, List.getElem?_set_self hlen], .inr (.inr ⟨v, b, msg, .inr rfl, addr_keep s op v b h2, h3, h4, h5⟩)⟩
      · cases h1
    · exact other a _ e hj

theorem LookupCall.run {P : Msg → Prop} {n i : Nat} (ops : List Op) : ∀ {s : State} {tag : Nat → Nat}, LookupCall P n i s → Waiter.Inv tag s.conn.w →
    (∀ b m, .conn (.packet b) ∈ ops → Delivers b m → P m) → LookupCall P n i (Gateway.run s ops) := by
  induction ops with
  | nil => intro s tag h _ _; exact h
  | cons op ops ih =>
    intro s tag h hi hop
    obtain ⟨ws, e, -⟩ := step_w s op
    obtain ⟨tag', hi'⟩ := hi.run ws
    rw [← e] at hi'
    exact ih (h.step hi op (fun b m e => hop b m (by rw [e]; exact .head _))) hi' (fun b m hb => hop b m (.tail _ hb))

theorem lookupCall_start (P : Msg → Prop) (s : State) {tag : Nat → Nat} (hi : Waiter.Inv tag s.conn.w) (n : Nat) (hn : s.conns.get? n = none) :
    LookupCall P n s.jobs.length (Gateway.step s (.connectToNode n)) := by
  simp only [step, Gateway.connectToNode, hn, ipOfNode]
  generalize solicitation n = pkt
  cases pkt with
  | error e => exact ⟨_, by simp [lookup, State.addJob], .inr (.inl ⟨e, rfl⟩)⟩
  | ok b =>
    have hw := (Conn.transmit_sends s.conn b).2.2.2.1
    refine ⟨.connect n s.conn.w.tasks.length, by simp [lookup, State.addJob, hw], .inl ⟨_, rfl, ?_⟩⟩
    simp only [lookup, State.addJob, hw]
    exact Waiter.Prov.call hi .plain 0x5801 3

end Gateway
end Model

import Verif.Props.Wire
import Verif.Props.Boot
import Verif.Spec.Peer
/-! Helper lemmas: one question of the gateway and its answer. -/
namespace Model.Gateway
open Spec Spec.Peer Props.Gateway Props.Boot


/-- Nothing is outstanding on the connection. -/
structure StillOpen (g : State) : Prop where
  connected : g.conn.connected = true
  acks : g.conn.ackQueue = []
  sessions : g.conn.w.sessions = []

/-- A connection with one question outstanding. `sq` is the number of the packet, `hid` the report waited for. -/
def posed (C : Conn.State) (sq hid : Nat) (q : List (Int × Nat)) (st : Conn.Status) (inner : Bool) (pc : Conn.Pc) (D : Nat) (ss : List (Nat × Nat)) (f : Waiter.Fut) (d : Nat)
    (tpc : Waiter.Pc) : Conn.State :=
  { C with ackQueue := q, sends := C.sends ++ [⟨sq, pc, st, 0, inner, D⟩],
           w := { C.w with sessions := ss, futs := C.w.futs ++ [f], tasks := C.w.tasks ++ [⟨.adapter, hid, 3, some C.w.futs.length, d, tpc⟩] } }

theorem posed_ack (C : Conn.State) {sq hid D : Nat} {ss : List (Nat × Nat)} {f : Waiter.Fut} {d : Nat} {tpc : Waiter.Pc} {b : Bytes} (hb : AckFor b sq) :
    Conn.step (posed C sq hid [((sq : Int), C.sends.length)] .pending false .waiting D ss f d tpc) (.packet b) = posed C sq hid [] .received true .waiting D ss f d tpc := by
  obtain ⟨p, h1, h2, h3, h4, h5⟩ := hb
  simp only [Conn.step, Conn.onPacket, h1, h2, if_true, h3, Conn.ackReceived, if_neg h4, h5, posed, Dict.get?, if_true,
    List.getElem?_append_right (Nat.le_refl _), Nat.sub_self, List.getElem?_cons_zero, Dict.erase, Conn.Send.received]
  simp

theorem posed_resume (C : Conn.State) {sq hid D : Nat} {ss : List (Nat × Nat)} {f : Waiter.Fut} {d : Nat} {tpc : Waiter.Pc} :
    Conn.step (posed C sq hid [] .received true .waiting D ss f d tpc) (.resume C.sends.length) = posed C sq hid [] .received true (.done (.ok true)) D ss f d tpc := by
  simp [Conn.step, posed]

theorem posed_report (C : Conn.State) {sq hid D : Nat} {q : List (Int × Nat)} {st : Conn.Status} {inner : Bool} {pc : Conn.Pc} {d : Nat} {tpc : Waiter.Pc} {cb : Bytes} {m : Msg}
    (hne : cb ≠ []) (hd : decode cb = .ok m) (hh : m.hid = hid) :
    Conn.step (posed C sq hid q st inner pc D [(hid, C.w.futs.length)] .pending d tpc) (.packet (Props.GatewayCalls.answer cb)) = posed C sq hid q st inner pc D [] (.result m) d tpc := by
  obtain ⟨p, h1, hdesc, h2⟩ := Props.Wire.zip_plain plain ⟨by decide, by decide, by decide⟩ rfl cb m hne hd
  obtain ⟨a1, a2, a3, a4, -, -, -, -, a9, -⟩ := hdesc
  have a2 : p.flag "ackRequest" = false := a2
  have a3 : p.flag "ackResponse" = false := a3
  have a4 : p.flag "nackResponse" = false := a4
  have a9 : p.flag "zwCmdIncluded" = true := a9
  have h1 : decode (Props.GatewayCalls.answer cb) = .ok p := h1
  simp only [Conn.step, Conn.onPacket, h1, a1, if_true, a3, a4, a2, a9, Bool.false_eq_true, if_false, Conn.commandReceived, h2, Waiter.messageReceived, posed, Dict.get?, hh,
    List.getElem?_append_right (Nat.le_refl _), Nat.sub_self, List.getElem?_cons_zero, Dict.erase]
  simp

theorem posed_taken (C : Conn.State) {sq hid D : Nat} {q : List (Int × Nat)} {st : Conn.Status} {inner : Bool} {pc : Conn.Pc} {d : Nat} {m : Msg} :
    Conn.step (posed C sq hid q st inner pc D [] (.result m) d .waiting) (.waiter (.resume C.w.tasks.length)) = posed C sq hid q st inner pc D [] (.result m) d (.done (.ok m)) := by
  simp [Conn.step, Waiter.step, posed, Waiter.finish, Dict.erase]

theorem gw_conn_step (g : State) (X : Conn.State) (js : List Job) (o : Conn.Op) (h : external o = true) :
    step { g with conn := X, jobs := js } (.conn o) = { g with conn := Conn.step X o, jobs := js } := by
  simp only [step, h, if_true]

theorem posed_answered (g : State) (C : Conn.State) (a : Ask) {sq hid D : Nat} {b cb : Bytes} {m : Msg} (hb : AckFor b sq) (hne : cb ≠ []) (hd : decode cb = .ok m) (hh : m.hid = hid) :
    run { g with conn := posed C sq hid [((sq : Int), C.sends.length)] .pending false .waiting D [(hid, C.w.futs.length)] .pending 0 .sending,
                 jobs := g.jobs ++ [.ask a C.w.tasks.length C.sends.length] } (answering C.sends.length g.jobs.length C.w.tasks.length b (Props.GatewayCalls.answer cb)) =
      let r := afterAsk { g with conn := posed C sq hid [] .received true (.done (.ok true)) D [] (.result m) (C.w.now + 3) (.done (.ok m)),
                                 jobs := g.jobs ++ [.ask a C.w.tasks.length C.sends.length] } a (.ok m) []
      r.1.setJob g.jobs.length r.2 := by
  simp only [run, answering, List.foldl_cons, List.foldl_nil]
  rw [gw_conn_step _ _ _ (.packet b) rfl, posed_ack C hb, gw_conn_step _ _ _ (.resume C.sends.length) rfl, posed_resume]
  have e3 : step { g with conn := posed C sq hid [] .received true (.done (.ok true)) D [(hid, C.w.futs.length)] .pending 0 .sending, jobs := g.jobs ++ [.ask a C.w.tasks.length C.sends.length] }
        (.job g.jobs.length []) =
      { g with conn := posed C sq hid [] .received true (.done (.ok true)) D [(hid, C.w.futs.length)] .pending (C.w.now + 3) .waiting,
               jobs := g.jobs ++ [.ask a C.w.tasks.length C.sends.length] } := by
    simp [step, stepJob, taskDone, sendResult, posed, Waiter.step]
  rw [e3, gw_conn_step _ _ _ (.packet (Props.GatewayCalls.answer cb)) rfl, posed_report C hne hd hh, gw_conn_step _ _ _ (.waiter (.resume C.w.tasks.length)) rfl, posed_taken]
  simp [step, stepJob, taskDone, posed]

theorem send_posed (C : Conn.State) (hid : Nat) (cmd : Msg) (cb : Bytes) (hc : compose cmd = .ok cb) (hcon : C.connected = true) (ha : C.ackQueue = []) (hs : C.w.sessions = []) :
    ∃ C' D, Conn.send { C with w := Waiter.step C.w (.call .adapter hid 3) } cmd 0 0 3 =
        posed C' ((C.seq + 1) % 256) hid [((((C.seq + 1) % 256 : Nat) : Int), C'.sends.length)] .pending false .waiting D [(hid, C'.w.futs.length)] .pending 0 .sending ∧
      C'.connected = true ∧ C'.out = C.out ++ [(gatewayHeader ((C.seq + 1) % 256)).bytes ++ cb] ∧ C'.sends = C.sends ∧ C'.w.tasks = C.w.tasks ∧ C'.w.now = C.w.now := by
  have h := packetFor_bind ((C.seq + 1) % 256) 0 0 (by omega) (by omega) (by omega) cmd
  rw [hc] at h
  have h' : (Conn.packetFor ((C.seq + 1) % 256) 0 0 cmd).bind compose = .ok ((gatewayHeader ((C.seq + 1) % 256)).bytes ++ cb) := h
  have hw : Waiter.step C.w (.call .adapter hid 3) =
      { C.w with sessions := [(hid, C.w.futs.length)], futs := C.w.futs ++ [.pending], tasks := C.w.tasks ++ [⟨.adapter, hid, 3, some C.w.futs.length, 0, .sending⟩] } := by
    simp [Waiter.step, Waiter.addWaitingSession, hs, Dict.get?, Dict.set]
  rw [hw]
  simp only [Conn.send, h', Conn.transmitAndWait, Conn.transmit, hcon, if_true]
  refine ⟨{ Conn.resetKeepAlive { C with seq := (C.seq + 1) % 256, out := C.out ++ [(gatewayHeader ((C.seq + 1) % 256)).bytes ++ cb] } with ackQueue := [] }, C.w.now + 3, ?_, ?_, ?_, ?_, ?_, ?_⟩
  · simp [Conn.resetKeepAlive, ha, Dict.mem, Dict.get?, Dict.set, posed, Conn.State.now, hcon]
  all_goals simp [Conn.resetKeepAlive, hcon]

/-- A question is asked. -/
theorem nm_asks {g : State} (h : StillOpen g) (c : Nm) (hf : NmFits c) (hn : ¬ (c = .getNodeList ∧ g.nodes ≠ [])) (hq : g.nmSeq < 255) {hid : Nat} (hw : c.waitsFor = some (hid, 3)) :
    ∃ C D, step g (.nm c) = { g with nmSeq := g.nmSeq + 1,
                                     conn := posed C ((g.conn.seq + 1) % 256) hid [((((g.conn.seq + 1) % 256 : Nat) : Int), C.sends.length)] .pending false .waiting D
                                       [(hid, C.w.futs.length)] .pending 0 .sending,
                                     jobs := g.jobs ++ [.ask (if c = .getNodeList then .list else .nm c) C.w.tasks.length C.sends.length] } ∧
      C.connected = true ∧ C.out = g.conn.out ++ [(gatewayHeader ((g.conn.seq + 1) % 256)).bytes ++ nmBytes (g.nmSeq + 1) c] := by
  obtain ⟨m, h1, h2⟩ := command_compose c hf (g.nmSeq + 1) (by omega)
  obtain ⟨C, D, e1, e2, e3, e4, e5, -⟩ := send_posed g.conn hid m _ h2 h.connected h.acks h.sessions
  refine ⟨C, D, ?_, e2, e3⟩
  simp only [step, startNm, if_neg hn, h1, hw, startAsk]
  rw [e1]
  have hse : sendError (posed C ((g.conn.seq + 1) % 256) hid [((((g.conn.seq + 1) % 256 : Nat) : Int), C.sends.length)] .pending false .waiting D
      [(hid, C.w.futs.length)] .pending 0 .sending) g.conn.sends.length = none := by
    rw [← e4]
    simp [sendError, posed]
  rw [← e4] at hse ⊢
  simp only [afterAskSend, hse, State.addJob, ← e5]

/-- The 256th question is not asked. -/
theorem nm_stuck (g : State) (c : Nm) (hf : NmFits c) (hn : ¬ (c = .getNodeList ∧ g.nodes ≠ [])) (hq : 255 ≤ g.nmSeq) {hid : Nat} (hw : c.waitsFor = some (hid, 3)) :
    (step g (.nm c)).jobs = g.jobs ++ [.done (.error .overflow)] ∧ (step g (.nm c)).conn.out = g.conn.out := by
  obtain ⟨m, h1⟩ := command_ok c hf (g.nmSeq + 1)
  have h2 := command_overflow c _ (by omega) m h1
  simp only [step, startNm, if_neg hn, h1, hw, startAsk, State.addJob, afterAskSend_out]
  obtain ⟨e1, e2⟩ := send_error { g.conn with w := Waiter.step g.conn.w (.call .adapter hid 3) } m _ h2
  refine ⟨?_, e1⟩
  rw [afterAskSend_job _ _ _ _ _ _ e2]
  simp [afterAskSend, e2]

/-- A question is asked and answered. -/
theorem nm_answered {g : State} (h : StillOpen g) (c : Nm) (hf : NmFits c) (hn : ¬ (c = .getNodeList ∧ g.nodes ≠ [])) (hq : g.nmSeq < 255) {hid : Nat} (hw : c.waitsFor = some (hid, 3)) :
    (step g (.nm c)).conn.out = g.conn.out ++ [(gatewayHeader ((g.conn.seq + 1) % 256)).bytes ++ nmBytes (g.nmSeq + 1) c] ∧
    ∀ (b cb : Bytes) (m : Msg), AckFor b ((g.conn.seq + 1) % 256) → cb ≠ [] → decode cb = .ok m → m.hid = hid →
      ∃ X : State, StillOpen X ∧ X.nmSeq = g.nmSeq + 1 ∧ X.nodes = g.nodes ∧ X.nodeId = g.nodeId ∧ X.listUpdated = g.listUpdated ∧ X.conn.out = (step g (.nm c)).conn.out ∧
        (∃ j, X.jobs = g.jobs ++ [j]) ∧
        run (step g (.nm c)) (answeringLast (step g (.nm c)) b (Props.GatewayCalls.answer cb)) =
          (afterAsk X (if c = .getNodeList then .list else .nm c) (.ok m) []).1.setJob g.jobs.length (afterAsk X (if c = .getNodeList then .list else .nm c) (.ok m) []).2 := by
  obtain ⟨C, D, e, e1, e2⟩ := nm_asks h c hf hn hq hw
  rw [e]
  refine ⟨e2, fun b cb m hb hne hd hh => ?_⟩
  have := posed_answered { g with nmSeq := g.nmSeq + 1 } C (if c = .getNodeList then .list else .nm c) (D := D) hb hne hd hh
  refine ⟨{ g with nmSeq := g.nmSeq + 1,
                   conn := posed C ((g.conn.seq + 1) % 256) hid [] .received true (.done (.ok true)) D [] (.result m) (C.w.now + 3) (.done (.ok m)),
                   jobs := g.jobs ++ [.ask (if c = .getNodeList then .list else .nm c) C.w.tasks.length C.sends.length] },
    ⟨e1, rfl, rfl⟩, rfl, rfl, rfl, rfl, rfl, ⟨_, rfl⟩, ?_⟩
  refine Eq.trans ?_ this
  simp only [answeringLast, answering, posed, List.length_append, List.length_cons, List.length_nil, Nat.zero_add, Nat.add_sub_cancel]

end Model.Gateway

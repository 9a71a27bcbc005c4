import Verif.Lemmas.ToNode
/-!
# The gateway's own connection behaves like a connection

Apart from what it transmits (address lookups are transmitted without `send()`), the connection of a gateway is at every moment in a state that a connection reaches by itself, with the same
datagrams arriving.
-/
namespace Model.Gateway
open Spec (Bytes)

/-- A connection without what it has transmitted. -/
def bare (c : Conn.State) : Conn.State := { c with out := [] }

theorem bare_out (c : Conn.State) (x : List Bytes) : bare { c with out := x } = bare c := rfl

theorem ackReceived_out (c : Conn.State) (x : List Bytes) (p : Msg) :
    Conn.ackReceived { c with out := x } p = ({ (Conn.ackReceived c p).1 with out := x }, (Conn.ackReceived c p).2) := by
  simp only [Conn.ackReceived, Conn.lookup]
  repeat' split
  all_goals first | rfl | simp_all

theorem commandReceived_out (c : Conn.State) (x : List Bytes) (m : Msg) :
    Conn.commandReceived { c with out := x } m = ({ (Conn.commandReceived c m).1 with out := x }, (Conn.commandReceived c m).2) := by
  simp only [Conn.commandReceived]
  generalize (if m.hid = 0x2302 then m.command else some m) = y
  cases y with
  | none => rfl
  | some msg =>
    simp only
    split <;> rfl

theorem onPacket_out (c : Conn.State) (x : List Bytes) (b : Bytes) :
    Conn.onPacket { c with out := x } b = ({ (Conn.onPacket c b).1 with out := x }, (Conn.onPacket c b).2) := by
  simp only [Conn.onPacket]
  cases decode b with
  | error e => rfl
  | ok p =>
    simp only [ackReceived_out, commandReceived_out]
    generalize Conn.ackReceived c p = a
    generalize Conn.commandReceived c p = d
    obtain ⟨a1, a2⟩ := a
    obtain ⟨d1, d2⟩ := d
    cases a2 <;> cases d2 <;> simp only <;> repeat' split
    all_goals rfl

theorem transmit_out (c : Conn.State) (x : List Bytes) (b : Bytes) : bare (Conn.transmit { c with out := x } b) = bare c := by
  simp only [Conn.transmit]
  split <;> rfl

theorem bare_transmit (c : Conn.State) (b : Bytes) : bare (Conn.transmit c b) = bare c := transmit_out c c.out b

theorem bare_resetKeepAlive (c : Conn.State) : bare (Conn.resetKeepAlive c) = Conn.resetKeepAlive (bare c) := rfl

theorem bare_keepAlive (c : Conn.State) (p : Py Bytes) : bare (Conn.keepAlive c p) = bare (Conn.keepAlive (bare c) p) := by
  cases p with
  | error e => rfl
  | ok b => simp only [Conn.keepAlive, bare_resetKeepAlive, bare_transmit]; rfl

theorem bare_transmitAndWait (c : Conn.State) (p : Py Bytes) (t : Nat) : bare (Conn.transmitAndWait c p t) = bare (Conn.transmitAndWait (bare c) p t) := by
  cases p with
  | error e => rfl
  | ok b =>
    simp only [Conn.transmitAndWait]
    have h : ∀ d : Conn.State, bare (Conn.resetKeepAlive (Conn.transmit d b)) = Conn.resetKeepAlive (bare d) := by
      intro d; rw [bare_resetKeepAlive, bare_transmit]
    have h1 := h c
    have h2 := h (bare c)
    generalize Conn.resetKeepAlive (Conn.transmit c b) = d1 at *
    generalize Conn.resetKeepAlive (Conn.transmit (bare c) b) = d2 at *
    have h3 : bare d1 = bare d2 := by rw [h1, h2]; rfl
    obtain ⟨a1, a2, a3, a4, a5, a6, a7, a8, a9, a10⟩ := d1
    obtain ⟨e1, e2, e3, e4, e5, e6, e7, e8, e9, e10⟩ := d2
    simp only [bare, Conn.State.mk.injEq] at h3
    obtain ⟨rfl, rfl, rfl, rfl, rfl, rfl, rfl, rfl, -, rfl⟩ := h3
    simp only [Conn.State.now]
    split <;> rfl

/-- What a connection does next does not depend on what it has transmitted. -/
theorem bare_step (c : Conn.State) (o : Conn.Op) : bare (Conn.step c o) = bare (Conn.step (bare c) o) := by
  cases o with
  | connect => rfl
  | send cmd src dst t =>
    simp only [Conn.step, Conn.send]
    rw [bare_transmitAndWait, bare_transmitAndWait { bare c with seq := _ }]
    rfl
  | packet b =>
    exact (congrArg (fun a => bare a.1) (onPacket_out c [] b)).symm
  | tick => rfl
  | timer i =>
    simp only [Conn.step, show (bare c).sends = c.sends from rfl, show (bare c).now = c.now from rfl]
    split
    · rfl
    · split <;> rfl
  | resume i =>
    simp only [Conn.step, show (bare c).sends = c.sends from rfl, show (bare c).now = c.now from rfl]
    split
    · rfl
    · split
      · split <;> rfl
      · split <;> rfl
  | cancelled i =>
    simp only [Conn.step, show (bare c).sends = c.sends from rfl, show (bare c).ackQueue = c.ackQueue from rfl]
    split
    · rfl
    · split
      · split <;> rfl
      · rfl
  | kill i =>
    simp only [Conn.step, show (bare c).sends = c.sends from rfl]
    split
    · rfl
    · split <;> rfl
  | fire k =>
    simp only [Conn.step, show (bare c).timers = c.timers from rfl, show (bare c).now = c.now from rfl]
    split
    · rfl
    · split
      · rw [bare_keepAlive, bare_keepAlive { bare c with timers := _ }]
        rfl
      · rfl
  | waiter o => cases o <;> rfl

theorem bare_run (l : List Conn.Op) : ∀ (c d : Conn.State), bare c = bare d → bare (Conn.run c l) = bare (Conn.run d l) := by
  induction l with
  | nil => intro c d h; exact h
  | cons o l ih =>
    intro c d h
    rw [Conn.run_cons, Conn.run_cons]
    apply ih
    rw [bare_step, h, ← bare_step]

/-- The datagrams that arrive, of a schedule of a connection. -/
def connPackets (l : List Conn.Op) : List Bytes := l.filterMap fun | .packet b => some b | _ => none

/-- The datagrams that arrive on the gateway's own connection. -/
def ownPackets (l : List Op) : List Bytes := l.filterMap fun | .conn (.packet b) => some b | _ => none

/-- The connection `d` follows `c` by operations of the connection without datagrams. -/
def Quiet (c d : Conn.State) : Prop := ∃ l, bare d = bare (Conn.run c l) ∧ connPackets l = []

theorem Quiet.refl (c : Conn.State) : Quiet c c := ⟨[], rfl, rfl⟩

theorem Quiet.trans {a b c : Conn.State} (h1 : Quiet a b) (h2 : Quiet b c) : Quiet a c := by
  obtain ⟨l1, e1, p1⟩ := h1
  obtain ⟨l2, e2, p2⟩ := h2
  refine ⟨l1 ++ l2, ?_, ?_⟩
  · rw [e2, Conn.run_append]; exact bare_run l2 _ _ e1
  · rw [connPackets, List.filterMap_append, ← connPackets, ← connPackets, p1, p2]; rfl

theorem Quiet.one (c : Conn.State) (o : Conn.Op) (h : connPackets [o] = []) : Quiet c (Conn.step c o) := ⟨[o], rfl, h⟩

theorem Quiet.transmit (c : Conn.State) (b : Bytes) : Quiet c (Conn.transmit c b) := ⟨[], bare_transmit c b, rfl⟩

theorem Quiet.call (c : Conn.State) (k : Waiter.Kind) (hid t : Nat) : Quiet c { c with w := Waiter.step c.w (.call k hid t) } := Quiet.one c (.waiter (.call k hid t)) rfl

theorem Quiet.raise (c : Conn.State) (t : Nat) (e : PyErr) : Quiet c { c with w := Waiter.step c.w (.sendRaise t e) } := Quiet.one c (.waiter (.sendRaise t e)) rfl

theorem Quiet.done (c : Conn.State) (t : Nat) (b : Bool) : Quiet c { c with w := Waiter.step c.w (.sendDone t b) } := Quiet.one c (.waiter (.sendDone t b)) rfl

theorem Quiet.send (c : Conn.State) (cmd : Msg) (src dst : Int) (t : Nat) : Quiet c (Conn.send c cmd src dst t) := by
  refine ⟨[.send cmd src dst t], ?_, rfl⟩
  simp only [Conn.run, List.foldl_cons, List.foldl_nil, Conn.step]

attribute [local irreducible] Conn.send solicitation

theorem quiet_startSend (s : State) (cmd : Msg) : Quiet s.conn (startSend s cmd).1.conn := by
  simp only [startSend, afterSend]
  split <;> exact Quiet.send ..

theorem quiet_startAsk (s : State) (a : Ask) (cmd : Msg) (hid timeout : Nat) : Quiet s.conn (startAsk s a cmd hid timeout).1.conn := by
  simp only [startAsk, afterAskSend]
  have h := (Quiet.call s.conn .adapter hid timeout).trans (Quiet.send _ cmd 0 0 3)
  split
  · exact h.trans (Quiet.raise ..)
  · exact h

theorem quiet_startNm (s : State) (c : Nm) : Quiet s.conn (startNm s c).1.conn := by
  simp only [startNm]
  split
  · exact .refl _
  · split
    · exact .refl _
    · split
      · exact quiet_startSend { s with nmSeq := s.nmSeq + 1 } _
      · exact quiet_startAsk { s with nmSeq := s.nmSeq + 1 } _ _ _ _

theorem quiet_lookup (s : State) (p : Py Bytes) : Quiet s.conn (lookup s p).1.conn := by
  cases p with
  | error e => exact .refl _
  | ok b => exact (Quiet.transmit s.conn b).trans (Quiet.call ..)

theorem quiet_ipOfNode (s : State) (n : Nat) : Quiet s.conn (ipOfNode s n).1.conn := quiet_lookup s _

theorem quiet_reportLoop : ∀ (l : List Nat) (s : State), Quiet s.conn (reportLoop s l).1.conn := by
  intro l
  induction l with
  | nil => intro s; exact .refl _
  | cons n l ih =>
    intro s
    simp only [reportLoop]
    split
    · exact ih s
    · have h := quiet_ipOfNode s n
      split <;> (rename_i e; rw [e] at h; exact h)

theorem quiet_setupLoop : ∀ (l : List Nat) (s : State), Quiet s.conn (setupLoop s l).1.conn := by
  intro l
  induction l with
  | nil => intro s; exact .refl _
  | cons n l ih =>
    intro s
    simp only [setupLoop]
    split
    · exact .refl _
    · exact ih s
    · have h := quiet_ipOfNode s n
      split <;> (rename_i e; rw [e] at h; exact h)

theorem quiet_handleNodeListReport (s : State) (m : Msg) (order : List Nat) : Quiet s.conn (handleNodeListReport s m order).1.conn := by
  simp only [handleNodeListReport]
  split
  · exact .refl _
  · exact quiet_reportLoop _ { s with nodes := _ }

theorem quiet_connectToNode (s : State) (n : Nat) : Quiet s.conn (connectToNode s n).1.conn := by
  simp only [connectToNode]
  split
  · exact .refl _
  · have h := quiet_ipOfNode s n
    split <;> (rename_i e; rw [e] at h; exact h)

theorem conn_onMessageReceived (s : State) (k : Nat) (m : Msg) : (onMessageReceived s k m).conn = s.conn := by
  simp only [onMessageReceived]
  split <;> rfl

theorem quiet_onUnsolicited (s : State) (pkt sender : Bytes) (order : List Nat) : Quiet s.conn (onUnsolicitedMessage s pkt sender order).1.conn := by
  simp only [onUnsolicitedMessage]
  split
  · exact .refl _
  · split
    · exact quiet_handleNodeListReport s _ order
    · repeat' split
      all_goals exact .refl _

theorem conn_storeList (s : State) (m : Msg) : (storeList s m).1.conn = s.conn := by
  simp only [storeList]
  split <;> rfl

theorem quiet_afterAsk (s : State) (a : Ask) (r : Py Msg) (order : List Nat) : Quiet s.conn (afterAsk s a r order).1.conn := by
  unfold afterAsk
  split
  · exact .refl _
  · exact .refl _
  · have h := conn_storeList s
    split <;> (rename_i e; have h := h ‹Msg›; rw [e] at h; simp only at h ⊢; rw [h]; exact .refl _)
  · exact .refl _
  · rename_i m
    have h := conn_storeList s m
    split
    · rename_i s' l e
      rw [e] at h
      simp only at h
      rw [← h]
      exact quiet_setupLoop _ s'
    · rename_i e; rw [e] at h; simp only at h ⊢; rw [h]; exact .refl _
  · exact .refl _
  · split
    · exact .refl _
    · split
      · exact .refl _
      · exact quiet_startSend ..
  · exact .refl _
  · exact .refl _

theorem quiet_stepJob (s : State) (i : Nat) (order : List Nat) : Quiet s.conn (stepJob s i order).conn := by
  unfold stepJob
  split
  · exact .refl _
  · split <;> exact .refl _
  · split
    · exact quiet_afterAsk ..
    · split
      · exact .refl _
      · exact Quiet.done ..
      · exact Quiet.raise ..
  · split
    · exact .refl _
    · exact .refl _
    · exact quiet_reportLoop _ { s with nodes := _ }
  · split
    · exact .refl _
    · exact .refl _
    · exact quiet_setupLoop _ { s with nodes := _ }
  · split
    · exact .refl _
    · exact .refl _
    · split <;> exact .refl _
  · exact .refl _
  · exact .refl _

theorem conn_fold (k : Nat) : ∀ (l : List Msg) (s : State), (l.foldl (fun s m => onMessageReceived s k m) s).conn = s.conn := by
  intro l
  induction l with
  | nil => intro s; rfl
  | cons m l ih => intro s; rw [List.foldl_cons, ih, conn_onMessageReceived]

theorem quiet_step (s : State) (o : Op) (hno : ∀ c, o ≠ .conn c) : Quiet s.conn (step s o).conn := by
  cases o with
  | nm c => exact quiet_startNm s c
  | setMode m =>
    have h := quiet_startAsk s (.mode m) (.known Reg.ZipGateway.GatewayModeGet.hid []) 0x5F03 3
    simp only [step]
    generalize startAsk s (.mode m) (.known Reg.ZipGateway.GatewayModeGet.hid []) 0x5F03 3 = a at h
    exact h
  | setup order =>
    simp only [step]
    split
    · exact quiet_setupLoop _ s
    · split
      · exact .refl _
      · rename_i cmd _
        have h := quiet_startAsk { s with nmSeq := s.nmSeq + 1 } .setup cmd 0x5202 3
        generalize startAsk { s with nmSeq := s.nmSeq + 1 } .setup cmd 0x5202 3 = a at h
        exact h
  | connectToNode n => exact quiet_connectToNode s n
  | opened i ok =>
    simp only [step]
    split
    · split <;> exact .refl _
    · exact .refl _
  | unsolicited p a order => exact quiet_onUnsolicited ..
  | job i order => exact quiet_stepJob ..
  | conn c => exact absurd rfl (hno c)
  | link k c =>
    simp only [step]
    split
    · exact .refl _
    · rw [conn_fold]; exact .refl _

/-- One operation of the gateway is some operations of its connection. -/
theorem conn_step (s : State) (o : Op) : ∃ l, bare (step s o).conn = bare (Conn.run s.conn l) ∧ connPackets l = ownPackets [o] := by
  by_cases hno : ∀ c, o ≠ .conn c
  · obtain ⟨l, h1, h2⟩ := quiet_step s o hno
    refine ⟨l, h1, h2.trans ?_⟩
    cases o with
    | conn c => exact absurd rfl (hno c)
    | _ => rfl
  · obtain ⟨c, rfl⟩ : ∃ c, o = .conn c := Classical.byContradiction fun h => hno fun c hc => h ⟨c, hc⟩
    simp only [step]
    split
    · refine ⟨[c], by rw [Conn.run_cons]; rfl, ?_⟩
      cases c <;> rfl
    · rename_i h
      refine ⟨[], rfl, ?_⟩
      cases c <;> first | rfl | exact absurd rfl h

/-- The connection of a gateway is, apart from what it has transmitted, in a state that a connection reaches by itself when the same datagrams arrive. -/
theorem conn_run (ops : List Op) : ∃ l, bare (run init ops).conn = bare (Conn.run Conn.init l) ∧ connPackets l = ownPackets ops := by
  have H : ∀ (ops : List Op) (s : State), ∃ l, bare (run s ops).conn = bare (Conn.run s.conn l) ∧ connPackets l = ownPackets ops := by
    intro ops
    induction ops with
    | nil => intro s; exact ⟨[], rfl, rfl⟩
    | cons o ops ih =>
      intro s
      obtain ⟨l1, e1, p1⟩ := conn_step s o
      obtain ⟨l2, e2, p2⟩ := ih (step s o)
      refine ⟨l1 ++ l2, ?_, ?_⟩
      · rw [Conn.run_append]
        exact e2.trans (bare_run l2 _ _ e1)
      · rw [connPackets, List.filterMap_append, ← connPackets, ← connPackets, p1, p2, ownPackets, ownPackets, ownPackets, ← List.filterMap_append]
        rfl
  exact H ops init

end Model.Gateway

import Verif.Lemmas.InTimeConn
import Verif.Props.Decoding
/-! Helper lemmas: a question of the gateway, while other things happen. -/
namespace Model.Gateway
open Spec Spec.Peer Props.Gateway

/-- Solicitations are not Z/IP packets. -/
theorem solicitation_other {n : Nat} {b : Bytes} (h : solicitation n = .ok b) : isPacket b = false := by
  by_cases hn : n < 256
  · rw [solicitation_bytes n hn] at h; cases h; rfl
  · exfalso
    have hc : construct Reg.ZipND.ZipInvNodeSolicitation (kw1 "local" (boolVal false) <| kw1 "nodeId" (.num .pyint n) fun _ => none) =
        .ok (.known Reg.ZipND.ZipInvNodeSolicitation.hid [("local", .num .flag 0), ("nodeId", .num (.uint 1) n)]) := by
      simp [construct, initAttrs, Reg.ZipND.ZipInvNodeSolicitation, coerceInit, boolVal, Dict.set, MsgDef.hid, kw1, bind, Except.bind, pure, Except.pure]
    unfold solicitation at h
    rw [hc] at h
    simp only [Except.bind] at h
    simp only [compose, composeWith, find_hid Reg.ZipND.ZipInvNodeSolicitation (by decide +kernel)] at h
    obtain ⟨w1, w2, h1⟩ := Props.composeDef_fields h ⟨"nodeId", .uint 1, none, none⟩ (by decide)
    have hov : toBytesBE (n : Int) 1 false = .error .overflow := by
      simp only [toBytesBE, Bool.false_eq_true, if_false]
      rw [if_neg (by omega)]
    simp [composeField, Dict.get?, serVal, Writer.addBytes, hov] at h1

theorem wait_connected (s : Conn.State) (pkt : Py Bytes) (to : Nat) (h : s.connected = true) : (Conn.transmitAndWait s pkt to).connected = true := by
  cases pkt with
  | error e => exact h
  | ok b =>
    simp only [Conn.transmitAndWait, Conn.resetKeepAlive, Conn.transmit, h, if_true]
    split <;> rfl

theorem send_connected (s : Conn.State) (cmd : Msg) (h : s.connected = true) : (Conn.send s cmd 0 0 3).connected = true := by
  generalize hp : (Conn.packetFor ((s.seq + 1) % 256) 0 0 cmd).bind compose = pkt
  have hs : Conn.send s cmd 0 0 3 = Conn.transmitAndWait { s with seq := (s.seq + 1) % 256 } pkt 3 := by rw [← hp]; rfl
  rw [hs]
  exact wait_connected _ _ _ h

theorem afterAskSend_posed (s : State) (a : Ask) (t : Nat) (C : Conn.State) (k : Nat) (h : sendError C k = none) : afterAskSend s a t C k = ({ s with conn := C }, .ask a t k) := by
  simp only [afterAskSend, h]

theorem ack_decode (q : UInt8) : decode [0x23, 0x02, 0x40, 0x10, q, 0, 0] = .ok (.known 0x2302 (zipAll 0x40 0x10 q 0 0 none)) := by
  rw [zip_decode]; rfl

/-- The connection is as before, or an address has been asked for. -/
def Lk (c d : Conn.State) : Prop := d = c ∨ ∃ b, isPacket b = false ∧ d = Conn.step (Conn.transmit c b) (.waiter (.call .plain 0x5801 3))

/-- Not a question to the network. -/
def NotAsk (j : Job) : Prop := ∀ a t k, j ≠ .ask a t k

theorem ipOfNode_lk (s : State) (n : Nat) : ∃ c r, ipOfNode s n = ({ s with conn := c }, r) ∧ Lk s.conn c := by
  unfold ipOfNode lookup
  split
  · exact ⟨_, _, rfl, .inl rfl⟩
  · rename_i b hb
    exact ⟨_, _, rfl, .inr ⟨b, solicitation_other hb, rfl⟩⟩

theorem reportLoop_lk (todo : List Nat) : ∀ s, ∃ c k j, reportLoop s todo = ({ s with conn := c, listUpdated := k }, j) ∧ Lk s.conn c ∧ NotAsk j := by
  induction todo with
  | nil => intro s; exact ⟨_, _, _, rfl, .inl rfl, by simp [NotAsk]⟩
  | cons n todo ih =>
    intro s
    simp only [reportLoop]
    split
    · exact ih s
    · obtain ⟨c, r, h, hl⟩ := ipOfNode_lk s n
      rw [h]
      cases r <;> exact ⟨c, s.listUpdated, _, rfl, hl, by simp [NotAsk]⟩

theorem setupLoop_lk (todo : List Nat) : ∀ s, ∃ c j, setupLoop s todo = ({ s with conn := c }, j) ∧ Lk s.conn c ∧ NotAsk j := by
  induction todo with
  | nil => intro s; exact ⟨_, _, rfl, .inl rfl, by simp [NotAsk]⟩
  | cons n todo ih =>
    intro s
    simp only [setupLoop]
    split
    · exact ⟨s.conn, _, rfl, .inl rfl, by simp [NotAsk]⟩
    · exact ih s
    · obtain ⟨c, r, h, hl⟩ := ipOfNode_lk s n
      rw [h]
      cases r <;> exact ⟨c, _, rfl, hl, by simp [NotAsk]⟩

theorem handle_lk (s : State) (m : Msg) (order : List Nat) :
    ∃ c k n j, handleNodeListReport s m order = ({ s with conn := c, listUpdated := k, nodes := n }, j) ∧ Lk s.conn c ∧ NotAsk j := by
  simp only [handleNodeListReport]
  split
  · exact ⟨_, _, _, _, rfl, .inl rfl, by simp [NotAsk]⟩
  · rename_i l _
    obtain ⟨c, k, j, h, hl⟩ := reportLoop_lk (iter l order) { s with nodes := s.nodes.filter (fun p => p.1 ∈ l) }
    exact ⟨c, k, _, j, h, hl⟩

theorem connectToNode_lk (s : State) (n : Nat) : ∃ c j, Gateway.connectToNode s n = ({ s with conn := c }, j) ∧ Lk s.conn c ∧ NotAsk j := by
  simp only [Gateway.connectToNode]
  split
  · exact ⟨_, _, rfl, .inl rfl, by simp [NotAsk]⟩
  · obtain ⟨c, r, h, hl⟩ := ipOfNode_lk s n
    rw [h]
    cases r <;> exact ⟨c, _, rfl, hl, by simp [NotAsk]⟩

/-- What operations that are not about questions change. -/
structure Other (g g' : State) : Prop where
  conn : Lk g.conn g'.conn
  id : g'.nodeId = g.nodeId
  nm : g'.nmSeq = g.nmSeq
  asks : ∀ (i : Nat) (a : Ask) (t k : Nat), g'.jobs[i]? = some (.ask a t k) → g.jobs[i]? = some (.ask a t k)

theorem Other.refl (g : State) : Other g g := ⟨.inl rfl, rfl, rfl, fun _ _ _ _ h => h⟩

theorem other_add {g : State} {j : Job} (hj : NotAsk j) (i : Nat) (a : Ask) (t k : Nat) (h : (g.jobs ++ [j])[i]? = some (.ask a t k)) : g.jobs[i]? = some (.ask a t k) := by
  by_cases hi : i < g.jobs.length
  · rw [List.getElem?_append_left hi] at h; exact h
  · rw [List.getElem?_append_right (by omega)] at h
    cases hk : i - g.jobs.length with
    | zero => rw [hk] at h; simp only [List.getElem?_cons_zero, Option.some.injEq] at h; exact absurd h (hj a t k)
    | succ n => rw [hk] at h; simp at h

theorem other_set {g : State} {m : Nat} {j : Job} (hj : NotAsk j) (i : Nat) (a : Ask) (t k : Nat) (h : (g.jobs.set m j)[i]? = some (.ask a t k)) : g.jobs[i]? = some (.ask a t k) := by
  rw [List.getElem?_set] at h
  split at h
  · split at h
    · cases h; exact absurd rfl (hj a t k)
    · cases h
  · exact h

theorem other_job {g : State} (i : Nat) (order : List Nat) (h : ∀ a t k, g.jobs[i]? ≠ some (.ask a t k)) : Other g (stepJob g i order) := by
  have hd : ∀ r, NotAsk (.done r) := by simp [NotAsk]
  simp only [stepJob]
  split
  · exact .refl g
  · split
    · exact .refl g
    · exact ⟨.inl rfl, rfl, rfl, other_set (hd _)⟩
    · exact ⟨.inl rfl, rfl, rfl, other_set (hd _)⟩
  · rename_i a t k e; exact absurd e (h a t k)
  · split
    · exact .refl g
    · exact ⟨.inl rfl, rfl, rfl, other_set (hd _)⟩
    · rename_i _ n todo t _ _ m _
      obtain ⟨c, k, j, h, hl, hn⟩ := reportLoop_lk todo { g with nodes := g.nodes.set n (advertised m) }
      rw [h]
      exact ⟨hl, rfl, rfl, other_set hn⟩
  · split
    · exact .refl g
    · exact ⟨.inl rfl, rfl, rfl, other_set (hd _)⟩
    · rename_i _ n todo t _ _ m _
      obtain ⟨c, j, h, hl, hn⟩ := setupLoop_lk todo { g with nodes := g.nodes.set n (advertised m) }
      rw [h]
      exact ⟨hl, rfl, rfl, other_set hn⟩
  · split
    · exact .refl g
    · exact ⟨.inl rfl, rfl, rfl, other_set (hd _)⟩
    · split
      · exact ⟨.inl rfl, rfl, rfl, other_set (hd _)⟩
      · exact ⟨.inl rfl, rfl, rfl, other_set (by simp [NotAsk])⟩
  · exact .refl g
  · exact .refl g

theorem other_unsolicited (g : State) (pkt sender : Bytes) (order : List Nat) : Other g (onUnsolicitedMessage g pkt sender order).1 := by
  simp only [onUnsolicitedMessage]
  split
  · exact .refl g
  · split
    · rename_i a _
      obtain ⟨c, k, n, j, h, hl, hn⟩ := handle_lk g a order
      rw [h]
      exact ⟨hl, rfl, rfl, other_add hn⟩
    · split
      · exact .refl g
      · split
        · split
          · split
            · exact .refl g
            · exact ⟨.inl rfl, rfl, rfl, fun _ _ _ _ h => h⟩
          · exact .refl g
        · exact ⟨.inl rfl, rfl, rfl, fun _ _ _ _ h => h⟩

/-- What is neither a question nor about the connection. -/
theorem other_step {w : Network} {g : State} {o : Op} (hf : FineGateway w g o) (hc : ∀ c, o ≠ .conn c) (hj : ∀ i order, o = .job i order → ∀ a t k, g.jobs[i]? ≠ some (.ask a t k)) :
    Other g (step g o) := by
  cases o with
  | nm c => exact hf.elim
  | setMode m => exact hf.elim
  | setup order => exact hf.elim
  | connectToNode n =>
    obtain ⟨c, j, h, hl, hn⟩ := connectToNode_lk g n
    simp only [step, h, State.addJob]
    exact ⟨hl, rfl, rfl, other_add hn⟩
  | opened i ok =>
    simp only [step]
    split
    · split <;> exact ⟨.inl rfl, rfl, rfl, other_set (by simp [NotAsk])⟩
    · exact .refl g
  | unsolicited pkt sender order => exact other_unsolicited g pkt sender order
  | job i order => exact other_job i order (hj i order rfl)
  | conn o => exact absurd rfl (hc o)
  | link k o =>
    simp only [step]
    split
    · exact .refl g
    · rename_i l _
      obtain ⟨t, h⟩ := onMessageReceived_frame k ((Conn.step l.conn o).heard.drop l.conn.heard.length)
        { g with links := g.links.set k ({ l with conn := Conn.step l.conn o } : Link) }
      rw [h]
      exact ⟨.inl rfl, rfl, rfl, fun _ _ _ _ h => h⟩

end Model.Gateway

namespace Model.Waiter

/-- A call that is sending goes on sending until its send ends. -/
theorem sending_stays {s : State} {i : Nat} {t : Task} (ht : s.tasks[i]? = some t) (hp : t.pc = .sending) {op : Op} (h1 : op ≠ .kill i) (h2 : ∀ b, op ≠ .sendDone i b)
    (h3 : ∀ e, op ≠ .sendRaise i e) : (Waiter.step s op).tasks[i]? = some t := by
  by_cases ho : op.target = some i
  · cases op with
    | sendDone j b => cases ho; exact absurd rfl (h2 b)
    | sendRaise j e => cases ho; exact absurd rfl (h3 e)
    | timer j => cases ho; simp [Waiter.step, ht, hp]
    | resume j => cases ho; simp [Waiter.step, ht, hp]
    | cancelDone j => cases ho; simp [Waiter.step, ht, hp]
    | kill j => cases ho; exact absurd rfl h1
    | _ => cases ho
  · exact step_task_other s op i t ht ho

theorem call_len (s : State) (k : Kind) (h to : Nat) : (Waiter.step s (.call k h to)).tasks.length = s.tasks.length + 1 := by
  simp [Waiter.step, add_tasks]

end Model.Waiter

namespace Model.Gateway
open Spec Spec.Peer Props.Gateway
open Model.Conn (Rest Posed)

attribute [local irreducible] Conn.send decode

theorem Lk.rest {c d : Conn.State} (h : Lk c d) {k t : Option Nat} (hr : Rest c k t) : Rest d k t := by
  rcases h with rfl | ⟨b, -, rfl⟩
  · exact hr
  · obtain ⟨t1, t2, t3, t4, -⟩ := Conn.transmit_sends c b
    refine Rest.step (hr.congr ?_ ?_ ?_ ?_) (by simp) ?_
    all_goals first | assumption | skip
    rintro kd hid to e
    cases e; rfl

theorem Lk.last {c d : Conn.State} (h : Lk c d) : lastQuestion d.out = lastQuestion c.out ∧ (c.connected = true → d.connected = true) := by
  rcases h with rfl | ⟨b, hb, rfl⟩
  · exact ⟨rfl, id⟩
  · obtain ⟨h1, h2⟩ := Conn.step_last (Conn.transmit c b) (.waiter (.call .plain 0x5801 3)) (by simp)
    obtain ⟨h3, h4⟩ := Conn.transmit_last c hb
    exact ⟨h1.trans h3, fun h => h2 (h4.trans h)⟩

/-- What answers the packet `d`: an acknowledgement of the number `q`, and the report `m`. -/
structure Answers (w : Network) (d : Bytes) (q : Nat) (m : Msg) : Prop where
  ack : AckFor (w.reply d).1 q
  only_ack : ∀ p m', decode (w.reply d).1 = .ok p → p.command ≠ some m'
  report : ∃ p, decode (w.reply d).2 = .ok p ∧ p.command = some m ∧ p.hid = 0x2302 ∧ p.flag "ackResponse" = false ∧ p.flag "nackResponse" = false ∧ p.flag "ackRequest" = false ∧
    p.flag "zwCmdIncluded" = true

/-- Nothing is outstanding but the send `k`, the wait `t` and the job `j`. -/
structure Calm (g : State) (k t j : Option Nat) : Prop where
  rest : Rest g.conn k t
  connected : g.conn.connected = true
  asks : ∀ (i : Nat) (a : Ask) (t' k' : Nat), g.jobs[i]? = some (.ask a t' k') → some i = j

/-- The call is sending, or its send has ended well. -/
def Held (c : Conn.State) (K T : Nat) : Prop :=
  (∃ t, c.w.tasks[T]? = some t ∧ t.pc = .sending) ∨ ∃ u, c.sends[K]? = some u ∧ u.pc = .done (.ok true)

/-- The job `J` asks `a` and waits for the answer `m` to its packet `d`. -/
structure Asked (w : Network) (g : State) (J : Nat) (a : Ask) (K T hid : Nat) (m : Msg) (d : Bytes) : Prop where
  calm : Calm g (some K) (some T) (some J)
  job : g.jobs[J]? = some (.ask a T K)
  posed : Posed g.conn K T hid m
  held : Held g.conn K T
  last : lastQuestion g.conn.out = some d
  isProxy : proxy hid = true
  isHid : m.hid = hid
  ans : Answers w d ((K + 1) % 256) m

theorem Answers.only {w : Network} {d : Bytes} {q : Nat} {m : Msg} (h : Answers w d q m) : ∀ p m', decode (w.reply d).2 = .ok p → p.command = some m' → m' = m := by
  obtain ⟨p, h1, h2, -⟩ := h.report
  intro p' m' e1 e2
  rw [h1] at e1; cases e1
  rw [h2] at e2; cases e2; rfl

/-- What becomes of an answer. -/
def Ends (a : Ask) (m : Msg) (N : Option Int → Option Int) (r : Py Ret) : Prop :=
  ∀ g order, ∃ nodes, afterAsk g a (.ok m) order = ({ g with nodeId := N g.nodeId, nodes := nodes }, .done r)

theorem Held.conn {w : Network} {c : Conn.State} {K T hid : Nat} {m : Msg} (h : Held c K T) (hP : Posed c K T hid m) (hp : proxy hid = true) (hm : m.hid = hid) {o : Conn.Op} (hf : FineConn w c o)
    (hx : external o = true) : Held (Conn.step c o) K T := by
  rcases h with ⟨t, ht, hpc⟩ | ⟨u, hu, hpc⟩
  · left
    rcases Conn.step_wop c o with e | ⟨wo, e, hwo⟩
    · rw [e]; exact ⟨t, ht, hpc⟩
    · rw [e]
      have hc : ∀ x, wo = x → (∀ m, x ≠ .message m) → x ≠ .tick → o = .waiter x := by
        rintro x rfl h1 h2
        rcases hwo with ⟨b, p, m, -, -, -, e3⟩ | e3 | ⟨e3, -⟩
        · exact absurd e3 (h1 m)
        · exact absurd e3 h2
        · exact e3
      refine ⟨t, Waiter.sending_stays ht hpc ?_ ?_ ?_, hpc⟩
      · rintro rfl
        have := hc _ rfl (by simp) (by simp)
        subst this
        have hh : t.hid = hid := by
          obtain ⟨tag, hi⟩ := hP.rest.winv
          rcases hP.hope with ⟨f, t', -, -, a1, a2, -⟩ | ⟨t', f, b1, b2, b3, -⟩
          · rw [ht] at a1; cases a1; exact a2
          · rw [ht] at b1; cases b1
            rw [← (hi.fut T t f ht b2).1, ← hi.res f m b3, hm]
        obtain ⟨r, hr⟩ := hf t ht (by rw [hh]; exact hp)
        rw [hpc] at hr; cases hr
      · rintro b rfl
        have := hc _ rfl (by simp) (by simp)
        subst this; cases hx
      · rintro b rfl
        have := hc _ rfl (by simp) (by simp)
        subst this; cases hx
  · right
    exact Conn.done_stays c o hu hpc

theorem Lk.held {c d : Conn.State} (h : Lk c d) {K T : Nat} (hh : Held c K T) : Held d K T := by
  rcases h with rfl | ⟨b, -, rfl⟩
  · exact hh
  · obtain ⟨t1, t2, t3, t4, -⟩ := Conn.transmit_sends c b
    rcases hh with ⟨t, ht, hpc⟩ | ⟨u, hu, hpc⟩
    · exact .inl ⟨t, Waiter.step_task_other _ _ T t (by rw [show (Conn.transmit c b).w = c.w by assumption]; exact ht) (by simp [Waiter.Op.target]), hpc⟩
    · exact .inr (Conn.done_stays _ _ (by rw [show (Conn.transmit c b).sends = c.sends by assumption]; exact hu) hpc)

theorem Lk.posed {w : Network} {c c' : Conn.State} (h : Lk c c') {K T hid : Nat} {m : Msg} {d : Bytes} (hP : Posed c K T hid m) (hp : proxy hid = true) (hm : m.hid = hid)
    (hl : lastQuestion c.out = some d) (hd : ∀ p m', decode (w.reply d).2 = .ok p → p.command = some m' → m' = m) : Posed c' K T hid m := by
  rcases h with rfl | ⟨b, hb, rfl⟩
  · exact hP
  · obtain ⟨t1, t2, t3, t4, -⟩ := Conn.transmit_sends c b
    refine Posed.step (w := w) (d := d) (hP.congr ?_ ?_ ?_ ?_) hp hm (by rw [(Conn.transmit_last c hb).1]; exact hl) hd ?_ (by simp)
    all_goals first | assumption | exact (rfl : proxy 0x5801 = false)

theorem Calm.other {g g' : State} {k t j : Option Nat} (h : Calm g k t j) (ho : Other g g') : Calm g' k t j :=
  ⟨ho.conn.rest h.rest, ho.conn.last.2 h.connected, fun i a t' k' hi => h.asks i a t' k' (ho.asks i a t' k' hi)⟩

theorem Calm.conn {w : Network} {g : State} {k t j : Option Nat} (h : Calm g k t j) {o : Conn.Op} (hf : FineConn w g.conn o) : Calm { g with conn := Conn.step g.conn o } k t j := by
  have hs : ∀ cmd src dst to, o ≠ .send cmd src dst to := by rintro cmd src dst to rfl; exact hf
  have hc : ∀ kd h to, o = .waiter (.call kd h to) → proxy h = false := by rintro kd h to rfl; exact hf
  exact ⟨h.rest.step hs hc, (Conn.step_last g.conn o hs).2 h.connected, h.asks⟩

/-- What happens while nothing is asked. -/
theorem Calm.step {w : Network} {g : State} (h : Calm g none none none) {o : Op} (hf : FineGateway w g o) :
    Calm (step g o) none none none ∧ (step g o).nodeId = g.nodeId ∧ (step g o).nmSeq = g.nmSeq := by
  by_cases hc : ∃ c, o = .conn c
  · obtain ⟨c, rfl⟩ := hc
    simp only [Gateway.step]
    split
    · exact ⟨h.conn hf, rfl, rfl⟩
    · exact ⟨h, rfl, rfl⟩
  · have := other_step hf (fun c e => hc ⟨c, e⟩) (fun i order _ a t k e => by simpa using h.asks i a t k e)
    exact ⟨h.other this, this.id, this.nm⟩

theorem Asked.other {w : Network} {g g' : State} {J : Nat} {a : Ask} {K T hid : Nat} {m : Msg} {d : Bytes} (h : Asked w g J a K T hid m d) (ho : Other g g')
    (hj : g'.jobs[J]? = some (.ask a T K)) : Asked w g' J a K T hid m d :=
  ⟨h.calm.other ho, hj, ho.conn.posed h.posed h.isProxy h.isHid h.last h.ans.only, ho.conn.held h.held, ho.conn.last.1.trans h.last, h.isProxy, h.isHid, h.ans⟩

/-- A question has been answered. -/
structure Returned (g : State) (J : Nat) (r : Py Ret) : Prop where
  calm : Calm g none none none
  job : g.jobs[J]? = some (.done r)

/-- A question whose answer has arrived. -/
theorem Asked.returns {w : Network} {g : State} {J : Nat} {a : Ask} {K T hid : Nat} {m : Msg} {d : Bytes} (h : Asked w g J a K T hid m d) {N : Option Int → Option Int} {r : Py Ret} (he : Ends a m N r)
    {x : Py Msg} (hd : taskDone g T = some x) (order : List Nat) :
    (Gateway.step g (.job J order)).nmSeq = g.nmSeq ∧ Returned (Gateway.step g (.job J order)) J r ∧ (Gateway.step g (.job J order)).nodeId = N g.nodeId := by
  obtain ⟨t, ht, hpc⟩ := taskDone_ok hd
  have hx : x = .ok m := by
    rcases h.posed.hope with ha | ha
    · exact absurd hpc (ha.open ht x)
    · exact ha.ended ht hpc
  subst hx
  obtain ⟨u, hu, hup⟩ : ∃ u, g.conn.sends[K]? = some u ∧ u.pc = .done (.ok true) := by
    rcases h.held with ⟨t', ht', hp'⟩ | hh
    · rw [ht] at ht'; cases ht'; rw [hpc] at hp'; cases hp'
    · exact hh
  obtain ⟨nodes, e⟩ := he g order
  have es : Gateway.step g (.job J order) = ({ g with nodeId := N g.nodeId, nodes := nodes } : State).setJob J (.done r) := by
    simp only [Gateway.step, stepJob, h.job, hd, e]
  rw [es]
  refine ⟨rfl, ⟨⟨⟨h.calm.rest.inv, h.calm.rest.winv, ?_, ?_⟩, h.calm.connected, ?_⟩, ?_⟩, rfl⟩
  · intro i u' hu' _
    by_cases hi : i = K
    · subst hi
      have hu' : g.conn.sends[i]? = some u' := hu'
      rw [hu] at hu'; cases hu'
      exact ⟨_, hup, by simp⟩
    · exact h.calm.rest.sends i u' hu' (by simpa using hi)
  · intro i t' ht' hp' _
    by_cases hi : i = T
    · subst hi
      have ht' : g.conn.w.tasks[i]? = some t' := ht'
      rw [ht] at ht'; cases ht'
      exact ⟨_, hpc⟩
    · exact h.calm.rest.tasks i t' ht' hp' (by simpa using hi)
  · intro i a' t' k' hi
    simp only [State.setJob, List.getElem?_set] at hi
    split at hi
    · split at hi <;> cases hi
    · rename_i hne
      have := h.calm.asks i a' t' k' hi
      simp only [Option.some.injEq] at this
      exact absurd this.symm hne
  · simp only [State.setJob]
    exact List.getElem?_set_self (List.getElem?_eq_some_iff.mp h.job).1

/-- What happens while a question is asked. -/
theorem Asked.step {w : Network} {g : State} {J : Nat} {a : Ask} {K T hid : Nat} {m : Msg} {d : Bytes} (h : Asked w g J a K T hid m d) {N : Option Int → Option Int} {r : Py Ret} (he : Ends a m N r)
    {o : Op} (hf : FineGateway w g o) : (Gateway.step g o).nmSeq = g.nmSeq ∧
      ((Asked w (Gateway.step g o) J a K T hid m d ∧ (Gateway.step g o).nodeId = g.nodeId) ∨ (Returned (Gateway.step g o) J r ∧ (Gateway.step g o).nodeId = N g.nodeId)) := by
  by_cases hc : ∃ c, o = .conn c
  · obtain ⟨c, rfl⟩ := hc
    simp only [Gateway.step]
    split
    · rename_i hx
      refine ⟨rfl, .inl ⟨⟨h.calm.conn hf, h.job, h.posed.step h.isProxy h.isHid h.last h.ans.only hf ?_, h.held.conn h.posed h.isProxy h.isHid hf hx, ?_, h.isProxy, h.isHid, h.ans⟩, rfl⟩⟩
      · rintro e rfl; cases hx
      · exact (Conn.step_last g.conn c (by rintro cmd src dst to rfl; exact hf)).1.trans h.last
    · exact ⟨rfl, .inl ⟨h, rfl⟩⟩
  · by_cases hj : ∃ order, o = .job J order
    · obtain ⟨order, rfl⟩ := hj
      cases hd : taskDone g T with
      | some x =>
        obtain ⟨h1, h2, h3⟩ := h.returns he hd order
        exact ⟨h1, .inr ⟨h2, h3⟩⟩
      | none =>
        obtain ⟨u, hu, hpc⟩ := h.posed.send
        have hsr : sendResult g K = none ∨ (sendResult g K = some (.ok true) ∧ u.pc = .done (.ok true)) := by
          simp only [sendResult, hu]
          rcases hpc with hpc | hpc <;> rw [hpc]
          · exact .inl rfl
          · exact .inr ⟨rfl, rfl⟩
        rcases hsr with hs | ⟨hs, hpc⟩
        · have es : Gateway.step g (.job J order) = g := by
            simp only [Gateway.step, stepJob, h.job, hd, hs]
          rw [es]
          exact ⟨rfl, .inl ⟨h, rfl⟩⟩
        · have es : Gateway.step g (.job J order) = { g with conn := Conn.step g.conn (.waiter (.sendDone T true)) } := by
            simp only [Gateway.step, stepJob, h.job, hd, hs]; rfl
          rw [es]
          have hf' : FineConn w g.conn (.waiter (.sendDone T true)) := trivial
          exact ⟨rfl, .inl ⟨⟨h.calm.conn hf', h.job, h.posed.step h.isProxy h.isHid h.last h.ans.only hf' (by simp), .inr ⟨u, hu, hpc⟩, h.last, h.isProxy, h.isHid, h.ans⟩, rfl⟩⟩
    · have := other_step hf (fun c e => hc ⟨c, e⟩) (fun i order eo a' t' k' e => by
        have hi := h.calm.asks i a' t' k' e
        simp only [Option.some.injEq] at hi
        subst hi
        exact hj ⟨order, eo⟩)
      exact ⟨this.nm, .inl ⟨h.other this (jobs_keep g o J _ h.job (fun order e => hj ⟨order, e⟩) (by simp)), this.id⟩⟩

/-- A question is asked. -/
theorem asks {w : Network} {g : State} (h : Calm g none none none) (c : Nm) (hf : NmFits c) (hn : ¬ (c = .getNodeList ∧ g.nodes ≠ [])) (hq : g.nmSeq < 255) {hid : Nat}
    (hw : c.waitsFor = some (hid, 3)) (hp : proxy hid = true) {m : Msg} (hne : w.report (nmBytes (g.nmSeq + 1) c) ≠ []) (hd : decode (w.report (nmBytes (g.nmSeq + 1) c)) = .ok m) (hh : m.hid = hid) :
    ∃ K T d, Asked w (Gateway.step g (.nm c)) g.jobs.length (if c = .getNodeList then .list else .nm c) K T hid m d ∧ (Gateway.step g (.nm c)).nmSeq = g.nmSeq + 1 ∧
      (Gateway.step g (.nm c)).nodeId = g.nodeId := by
  obtain ⟨cmd, h1, h2⟩ := command_compose c hf (g.nmSeq + 1) (by omega)
  have hmem : ∀ v, g.conn.ackQueue.mem v = false := fun v => by simp [Dict.mem, h.rest.noAck v]
  obtain ⟨tag, hwi⟩ := h.rest.winv
  generalize hC1 : ({ g.conn with w := Waiter.step g.conn.w (.call .adapter hid 3) } : Conn.State) = C1
  have c1 : C1.sends = g.conn.sends := by rw [← hC1]
  have c2 : C1.ackQueue = g.conn.ackQueue := by rw [← hC1]
  have c3 : C1.seq = g.conn.seq := by rw [← hC1]
  have c4 : C1.w = Waiter.step g.conn.w (.call .adapter hid 3) := by rw [← hC1]
  have c5 : C1.connected = true := by rw [← hC1]; exact h.connected
  have c6 : C1.out = g.conn.out := by rw [← hC1]
  have hnow : g.conn.now ≤ C1.now := by
    unfold Conn.State.now; rw [c4]; simp [Waiter.step, Waiter.add_now]
  have hi1 : Conn.Inv C1 := h.rest.inv.congr c1 c2 c3 hnow
  obtain ⟨o1, o2⟩ := send_ok C1 cmd _ h2 c5
  have hpk : (Conn.packetFor ((C1.seq + 1) % 256) 0 0 cmd).bind compose = .ok ((gatewayHeader ((C1.seq + 1) % 256)).bytes ++ nmBytes (g.nmSeq + 1) c) := by
    have := packetFor_bind ((C1.seq + 1) % 256) 0 0 (by omega) (by omega) (by omega) cmd
    rw [h2] at this
    exact this
  have hse : sendError (Conn.send C1 cmd 0 0 3) C1.sends.length = none := by rw [o2, c2, hmem]; rfl
  have e : Gateway.step g (.nm c) = { g with
      nmSeq := g.nmSeq + 1, conn := Conn.send C1 cmd 0 0 3, jobs := g.jobs ++ [.ask (if c = .getNodeList then .list else .nm c) g.conn.w.tasks.length g.conn.sends.length] } := by
    rw [c1] at hse
    clear o1 o2 hpk hi1 hnow c1 c2 c3 c4 c5 c6
    subst hC1
    simp only [Gateway.step, startNm, if_neg hn, h1, hw, startAsk]
    rw [afterAskSend_posed _ _ _ _ _ hse]
    rfl
  obtain ⟨f1, f2⟩ := Conn.send_frame C1 cmd 0 0 3
  have hsends : (Conn.send C1 cmd 0 0 3).sends = C1.sends ++ [⟨(C1.seq + 1) % 256, .waiting, .pending, 0, false, C1.now + 3⟩] := by
    rcases Conn.send_cases C1 cmd 0 0 3 with ⟨x, hx, -⟩ | ⟨b, hb, hx, -⟩ | ⟨b, hb, hx, -, h5⟩
    · rw [hpk] at hx; cases hx
    · rw [c2, hmem] at hx; cases hx
    · exact h5
  have hconn : (Conn.send C1 cmd 0 0 3).connected = true :=
     send_connected C1 cmd c5
  have hold : ∀ (i : Nat) (u : Conn.Send), g.conn.sends[i]? = some u → ∃ r, u.pc = .done r ∧ r ≠ .error .cancelled := fun i u hu => h.rest.sends i u hu (by simp)
  have htold : ∀ (i : Nat) (t : Waiter.Task), g.conn.w.tasks[i]? = some t → proxy t.hid = true → ∃ r, t.pc = .done r := fun i t ht hp => h.rest.tasks i t ht hp (by simp)
  have hT := Waiter.call_task g.conn.w .adapter hid 3
  obtain ⟨tk, htk, hk1, hk2⟩ : ∃ t, (Conn.send C1 cmd 0 0 3).w.tasks[g.conn.w.tasks.length]? = some t ∧ t.kind = .adapter ∧ t.pc = .sending := by
    rw [f2, c4]
    exact ⟨_, hT, rfl, rfl⟩
  have hrest : Rest (Conn.send C1 cmd 0 0 3) (some g.conn.sends.length) (some g.conn.w.tasks.length) := by
    refine ⟨hi1.step (.send cmd 0 0 3), ?_, ?_, ?_⟩
    · rw [f2, c4]; exact hwi.step _
    · intro i u hu hk
      rw [hsends, c1] at hu
      have hi : i ≠ g.conn.sends.length := by simpa using hk
      have hlt := (List.getElem?_eq_some_iff.mp hu).1
      simp only [List.length_append, List.length_singleton] at hlt
      rw [List.getElem?_append_left (by omega)] at hu
      exact hold i u hu
    · intro i t ht hp' hk
      rw [f2, c4] at ht
      have hi : i ≠ g.conn.w.tasks.length := by simpa using hk
      have hlt := (List.getElem?_eq_some_iff.mp ht).1
      rw [Waiter.call_len] at hlt
      have hlt' : i < g.conn.w.tasks.length := by omega
      have hfw := Waiter.step_task_other g.conn.w (.call .adapter hid 3) i _ (List.getElem?_eq_getElem hlt') (by simp [Waiter.Op.target])
      rw [ht] at hfw
      cases hfw
      exact htold i _ (List.getElem?_eq_getElem hlt') hp'
  refine ⟨g.conn.sends.length, g.conn.w.tasks.length, (gatewayHeader ((g.conn.seq + 1) % 256)).bytes ++ nmBytes (g.nmSeq + 1) c, ⟨⟨?_, ?_, ?_⟩, ?_, ⟨?_, ?_, ?_, ?_, ?_⟩, ?_, ?_, hp, hh, ?_, ?_, ?_⟩, ?_, ?_⟩
  all_goals try rw [e]
  · exact hrest
  · exact hconn
  · intro i a t k hi
    dsimp only at hi
    by_cases hlt : i < g.jobs.length
    · rw [List.getElem?_append_left hlt] at hi
      exact absurd (h.asks i a t k hi) (by simp)
    · have := (List.getElem?_eq_some_iff.mp hi).1
      simp only [List.length_append, List.length_singleton] at this
      exact congrArg some (by omega)
  · simp
  · exact hrest
  · have := Conn.Mine.send hi1 cmd 0 0 3 (fun j u hu _ => by rw [c1] at hu; obtain ⟨r, hr, -⟩ := hold j u hu; exact ⟨r, hr⟩)
    rw [c1] at this
    exact this
  · refine ⟨⟨(C1.seq + 1) % 256, .waiting, .pending, 0, false, C1.now + 3⟩, ?_, .inl rfl⟩
    dsimp only
    rw [hsends, c1]
    simp
  · exact ⟨tk, htk, hk1⟩
  · left
    dsimp only
    rw [f2, c4]
    exact Waiter.Alone.call hwi (fun j u hu hh' => htold j u hu (by rw [hh']; exact hp)) .adapter 3
  · exact .inl ⟨tk, htk, hk2⟩
  · dsimp only
    rw [o1, Conn.lastQuestion_snoc, c3]
    rfl
  · rw [Boot.reply_gateway]
    have hs : (g.conn.seq + 1) % 256 = (g.conn.sends.length + 1) % 256 := by rw [h.rest.inv.last]; omega
    rw [hs]
    exact Boot.ackFor_reply (by omega)
  · rw [Boot.reply_gateway, ack_decode]
    rintro p m' e' e''
    cases e'
    cases e''
  · rw [Boot.reply_gateway]
    obtain ⟨p, h1, hdesc, h2⟩ := Props.Wire.zip_plain plain ⟨by decide, by decide, by decide⟩ rfl _ m hne hd
    obtain ⟨a1, a2, a3, a4, -, -, -, -, a9, -⟩ := hdesc
    exact ⟨p, h1, h2, a1, a3, a4, a2, a9⟩

/-- Some steps that are in time. -/
inductive Goes (w : Network) : State → List Op → State → Prop
  | nil (g : State) : Goes w g [] g
  | cons {g g' : State} {o : Op} {ops : List Op} : FineGateway w g o → Goes w (Gateway.step g o) ops g' → Goes w g (o :: ops) g'

theorem Goes.append {w : Network} {g1 g2 g3 : State} {a b : List Op} (h1 : Goes w g1 a g2) (h2 : Goes w g2 b g3) : Goes w g1 (a ++ b) g3 := by
  induction h1 with
  | nil g => exact h2
  | cons hf _ ih => exact .cons hf (ih h2)

theorem Goes.one {w : Network} {g : State} {o : Op} (hf : FineGateway w g o) : Goes w g [o] (Gateway.step g o) := .cons hf (.nil _)

/-- While the question is asked, the connection goes a step. -/
theorem Asked.connStep {w : Network} {g : State} {J : Nat} {a : Ask} {K T hid : Nat} {m : Msg} {d : Bytes} (h : Asked w g J a K T hid m d) {o : Conn.Op} (hf : FineConn w g.conn o)
    (hx : external o = true) : Asked w { g with conn := Conn.step g.conn o } J a K T hid m d ∧ Goes w g [.conn o] { g with conn := Conn.step g.conn o } := by
  have e : Gateway.step g (.conn o) = { g with conn := Conn.step g.conn o } := by simp only [Gateway.step, hx, if_true]
  refine ⟨⟨h.calm.conn hf, h.job, h.posed.step h.isProxy h.isHid h.last h.ans.only hf ?_, h.held.conn h.posed h.isProxy h.isHid hf hx, ?_, h.isProxy, h.isHid, h.ans⟩, ?_⟩
  · rintro e rfl; cases hx
  · exact (Conn.step_last g.conn o (by rintro cmd src dst to rfl; exact hf)).1.trans h.last
  · rw [← e]; exact .one hf

/-- The acknowledgement arrives. -/
theorem Asked.acked {w : Network} {g : State} {J : Nat} {a : Ask} {K T hid : Nat} {m : Msg} {d : Bytes} (h : Asked w g J a K T hid m d) :
    ∃ ops c, Goes w g ops { g with conn := c } ∧ Asked w { g with conn := c } J a K T hid m d ∧ ∃ u, c.sends[K]? = some u ∧ u.pc = .done (.ok true) := by
  obtain ⟨u, hu, hpc⟩ := h.posed.send
  have resume : ∀ {c : Conn.State} {u : Conn.Send}, Asked w { g with conn := c } J a K T hid m d → c.sends[K]? = some u → u.pc = .waiting → u.inner = true → u.status = .received →
      ∃ c', Goes w { g with conn := c } [.conn (.resume K)] { g with conn := c' } ∧ Asked w { g with conn := c' } J a K T hid m d ∧
        ∃ u, c'.sends[K]? = some u ∧ u.pc = .done (.ok true) := by
    intro c u h hu h1 h2 h3
    obtain ⟨h4, h5⟩ := h.connStep (o := .resume K) trivial rfl
    refine ⟨_, h5, h4, { u with pc := .done (.ok true) }, ?_, rfl⟩
    simp only [Conn.step, hu, h1, h2, h3]
    simp [(List.getElem?_eq_some_iff.mp hu).1]
  rcases hpc with hpc | hpc
  · by_cases hs : u.status = .received
    · have hin := (h.calm.rest.inv.sends K u hu).2.2.2.1 hpc hs
      obtain ⟨c', h1, h2, h3⟩ := resume h hu hpc hin hs
      exact ⟨_, c', h1, h2, h3⟩
    · obtain ⟨u', hu', hm⟩ := h.posed.mine
      rw [hu] at hu'; cases hu'
      obtain ⟨hq, -⟩ := hm (by rw [Conn.Send.open, hpc]; simp) hs
      rw [h.calm.rest.inv.seqs K u hu] at hq
      obtain ⟨h1, h2⟩ := h.connStep (o := .packet (w.reply d).1) (fun p m' e1 e2 _ => absurd e2 (h.ans.only_ack p m' e1)) rfl
      have e := (Conn.onPacket_ack h.ans.ack hq hu).1
      rw [e] at h1 h2
      obtain ⟨c', h3, h4, h5⟩ := resume (u := u.received) h1 (by simp [(List.getElem?_eq_some_iff.mp hu).1]) hpc (by simp [Conn.Send.received, hpc]) rfl
      exact ⟨_, c', h2.append h3, h4, h5⟩
  · exact ⟨[], g.conn, .nil g, h, u, hu, hpc⟩

/-- The report arrives. -/
theorem Asked.reported {w : Network} {g : State} {J : Nat} {a : Ask} {K T hid : Nat} {m : Msg} {d : Bytes} (h : Asked w g J a K T hid m d) :
    ∃ ops c, Goes w g ops { g with conn := c } ∧ Asked w { g with conn := c } J a K T hid m d ∧ Waiter.Resolved c.w T m ∧
      ∀ (u : Conn.Send) r, g.conn.sends[K]? = some u → u.pc = .done r → ∃ u', c.sends[K]? = some u' ∧ u'.pc = .done r := by
  rcases h.posed.hope with ha | ha
  · obtain ⟨h1, h2⟩ := h.connStep (o := .packet (w.reply d).2) (fun p m' e1 e2 _ => ⟨d, h.last, rfl⟩) rfl
    refine ⟨_, _, h2, h1, ?_, fun u r hu hr => Conn.done_stays _ _ hu hr⟩
    obtain ⟨p, e1, e2, e3, e4, e5, e6, e7⟩ := h.ans.report
    have e : (Conn.step g.conn (.packet (w.reply d).2)).w = Waiter.step g.conn.w (.message m) := by
      have hc : (Conn.commandReceived g.conn p).1.w = Waiter.step g.conn.w (.message m) := by
        simp only [Conn.commandReceived, e3, if_true, e2, Waiter.step]
        split <;> (rename_i e; rw [e])
      simp only [Conn.step, Conn.onPacket, e1, e3, if_true, e4, e5, e6, e7, Bool.false_eq_true, if_false]
      split <;> (rename_i e; rw [e] at hc; exact hc)
    rw [e]
    obtain ⟨t, ht, hk⟩ := h.posed.task
    rw [← h.isHid] at ha
    exact ha.message ht fun _ => by rw [hk]; simp
  · exact ⟨[], g.conn, .nil g, h, ha, fun u r hu hr => ⟨u, hu, hr⟩⟩

/-- What is asked can be answered. -/
theorem Asked.live {w : Network} {g : State} {J : Nat} {a : Ask} {K T hid : Nat} {m : Msg} {d : Bytes} (h : Asked w g J a K T hid m d) {N : Option Int → Option Int} {r : Py Ret} (he : Ends a m N r) :
    ∃ ops g', Goes w g ops g' ∧ Returned g' J r ∧ g'.nmSeq = g.nmSeq ∧ g'.nodeId = N g.nodeId := by
  obtain ⟨o1, c1, s1, h1, u0, hu0, hpc0⟩ := h.acked
  obtain ⟨o2, c2, s2, h2, r2, hkeep⟩ := h1.reported
  obtain ⟨u, hu, hpc⟩ := hkeep u0 _ hu0 hpc0
  have last : ∀ {c : Conn.State}, Asked w { g with conn := c } J a K T hid m d → ∀ {x}, taskDone { g with conn := c } T = some x →
      ∃ g', Goes w { g with conn := c } [.job J []] g' ∧ Returned g' J r ∧ g'.nmSeq = g.nmSeq ∧ g'.nodeId = N g.nodeId := by
    intro c h x hd
    obtain ⟨a1, a2, a3⟩ := h.returns he hd []
    exact ⟨_, .one trivial, a2, a1, a3⟩
  cases hd : taskDone { g with conn := c2 } T with
  | some x =>
    obtain ⟨g', s3, h3⟩ := last h2 hd
    exact ⟨_, g', (s1.append s2).append s3, h3⟩
  | none =>
    have es : Gateway.step { g with conn := c2 } (.job J []) = { g with conn := Conn.step c2 (.waiter (.sendDone T true)) } := by
      have hs : sendResult { g with conn := c2 } K = some (.ok true) := by simp only [sendResult, hu, hpc]
      simp only [Gateway.step, stepJob, h2.job, hd, hs]; rfl
    obtain ⟨-, h3⟩ := h2.step he (o := .job J []) trivial
    rw [es] at h3
    rcases h3 with ⟨h3, -⟩ | ⟨h3, -⟩
    · obtain ⟨h4, s4⟩ := h3.connStep (o := .waiter (.resume T)) trivial rfl
      have ht : ∃ x, taskDone { g with conn := Conn.step (Conn.step c2 (.waiter (.sendDone T true))) (.waiter (.resume T)) } T = some x := by
        obtain ⟨t, ht, hp⟩ := r2.finish true
        refine ⟨.ok m, ?_⟩
        have ht : (Conn.step (Conn.step c2 (.waiter (.sendDone T true))) (.waiter (.resume T))).w.tasks[T]? = some t := ht
        simp only [taskDone, ht, hp]
      obtain ⟨x, hx⟩ := ht
      obtain ⟨g', s5, h5⟩ := last h4 hx
      have s3 := Goes.one (w := w) (g := { g with conn := c2 }) (o := .job J []) trivial
      rw [es] at s3
      exact ⟨_, g', (((s1.append s2).append s3).append s4).append s5, h5⟩
    · have hj : g.jobs[J]? = some (.done r) := h3.job
      rw [h.job] at hj; cases hj

end Model.Gateway

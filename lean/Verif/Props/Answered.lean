import Verif.Lemmas.Answered
import Verif.Props.System
import Verif.Props.Wire
/-!
# Property theorems C140: a node that answers is heard
-/
namespace Props.System
open Spec Model Model.System Spec.System
open Model.App (Nd)

/-- What gets in the way of a call on the node object: another call for the same type, or the cancellation of the call or of its send. `task` is its number among the
waiting calls of the object, `n` the number of its send on the connection `k`. -/
def Disturbs (obj hid task k n : Nat) : Op → Prop
  | .ask nd _ h _ => nd.obj = obj ∧ h = hid
  | .waiter x (.call .plain h _) => x = obj ∧ h = hid
  | .waiter x (.kill i) => x = obj ∧ i = task
  | .net (.gw (.link k' (.kill i))) => k' = k ∧ i = n
  | _ => False

/-- What the waiting calls of the object see. -/
theorem waits_quiet {obj hid task k n a : Nat} {q : Ask} {ops : List Op} (hq : ∀ o ∈ ops, ¬ Disturbs obj hid task k n o) :
    ∀ {s : State}, System.Inv s → s.asks[a]? = some q → q.nd.obj = obj → q.task = task →
    ∀ w ∈ waitProj obj s ops, (¬ w.asks hid ∧ w ≠ .kill task) ∧ (.sent a ∉ ops → (∀ b, w ≠ .sendDone task b) ∧ ∀ e, w ≠ .sendRaise task e) := by
  intro s hi ha ho ht w hw
  obtain ⟨pre, o, post, rfl, h⟩ := mem_waitProj _ _ _ _ hw
  have hd := hq o (by simp)
  refine ⟨⟨fun hx => ?_, ?_⟩, fun hs => ?_⟩
  · rcases asks_op h hx with ⟨nd, cmd, to, rfl, e⟩ | ⟨to, rfl⟩
    · exact hd ⟨e, rfl⟩
    · exact hd ⟨rfl, rfl⟩
  · rintro rfl
    rw [kill_op h] at hd
    exact hd ⟨rfl, rfl⟩
  · have key : ¬ ((∃ b, w = .sendDone task b) ∨ ∃ e, w = .sendRaise task e) := by
      intro hx
      obtain ⟨a', q', rfl, h1, h2, h3⟩ := released_op h hx
      have := (hi.run pre).uniq a' a q' q h1 (run_asks pre _ _ _ ha) (by rw [h2, ho]) (by rw [h3, ht])
      subst this
      exact hs (by simp)
    exact ⟨fun b e => key (.inl ⟨b, e⟩), fun e x => key (.inr ⟨e, x⟩)⟩

/-- A command in a Z/IP packet on the connection of a node: the gateway tells it with the node and the end point. -/
theorem told_packet (os : List Gateway.Op) (n k : Nat) (l : Gateway.Link) (hk : (Gateway.run Gateway.init os).conns.get? n = some k)
    (hl : (Gateway.run Gateway.init os).links[k]? = some l)
    (h : ZipHeader) (hf : h.Fits) (hx : h.ext = false) (hcmd : h.cmd = true) (hq : h.ackRequest = false) (ha : h.ackResponse = false) (hnk : h.nackResponse = false)
    (cb : Bytes) (c : Msg) (hne : cb ≠ []) (hc : decode cb = .ok c) (hw : l.conn.w.sessions.get? c.hid = none) :
    ∃ t : Gateway.Told, (Gateway.step (Gateway.run Gateway.init os) (.link k (.packet (h.bytes ++ cb)))).told = (Gateway.run Gateway.init os).told ++ [t] ∧
      t.message = some c ∧ t.node = n ∧ t.sourceEP = some (h.src : Int) := by
  obtain ⟨p, hp, hd, hpc⟩ := Props.Wire.zip_plain h hf hx cb c hne hc
  have hinv : Gateway.LinkInv (Gateway.run Gateway.init os) := Gateway.linkInv_init.run os
  generalize Gateway.run Gateway.init os = s at *
  obtain ⟨d1, d2, d3, d4, -, -, -, -, d9, -, -, -, d13, -⟩ := hd
  have hnode : ∃ v, s.conns.find? (fun p => p.2 = k) = some (n, v) := by
    have hmem : (n, k) ∈ s.conns := Dict.mem_of_get? hk
    cases hf : s.conns.find? (fun p => p.2 = k) with
    | none => have := List.find?_eq_none.mp hf _ hmem; simp at this
    | some p =>
      obtain ⟨m, v⟩ := p
      have hv : v = k := by have := List.find?_some hf; simpa using this
      have e1 := hinv.conns m v (List.mem_of_find?_eq_some hf)
      have e2 := hinv.conns n k hmem
      rw [hv, e2] at e1
      cases e1
      exact ⟨v, rfl⟩
  obtain ⟨v, hfind⟩ := hnode
  have ht := Props.Gateway.link_told s k n v l hl hfind (.packet (h.bytes ++ cb))
  obtain ⟨hdel, -⟩ := C35_command_partial l.conn (h.bytes ++ cb) p c hp ⟨d1, by rw [d3, ha], by rw [d4, hnk], by rw [d2, hq], by rw [d9, hcmd], hpc⟩
    (fun f hf => by rw [hw] at hf; cases hf)
  have hheard : (Conn.step l.conn (.packet (h.bytes ++ cb))).heard = l.conn.heard ++ [p] := by
    rcases hdel with ⟨h1, -⟩ | ⟨-, f, h1, -⟩
    · exact h1
    · rw [hw] at h1; cases h1
  rw [hheard, List.drop_left] at ht
  exact ⟨Gateway.toldOf n p, ht, by simp only [Gateway.toldOf, d1, if_true, hpc], rfl, by simp only [Gateway.toldOf, d1, if_true, d13]⟩

/-- **C140.** `sendAndReceive()` is called on a node object whose node has a connection, and nobody waits for the type on this object. The acknowledgement of the command arrives
while the send waits for it, later a packet with a report of the type from this end point, which is delivered within the timeout after the send was over. Then the call returns a
message of the type. For every history before the call, and whatever happens before, between and after these events, unless it disturbs the call. -/
theorem C140_heard (own : Nat) (ops1 A B C D E F G : List Op) (nd : Nd) (cmd : Msg) (hid timeout k q : Nat) (l l1 l2 : Gateway.Link) (ack : Bytes)
    (h : ZipHeader) (cb : Bytes) (c m : Msg) :
    let s0 := run (init own) ops1
    let task := (s0.waiters nd.obj).tasks.length
    let call := s0.net.calls.length
    let n := l.conn.sends.length
    let toAck := Op.ask nd cmd hid timeout :: A
    let toSent := toAck ++ .net (.gw (.link k (.packet ack))) :: B ++ .net (.gw (.link k (.resume n))) :: C ++ .net (.resume call) :: D
    let toReport := toSent ++ .sent s0.asks.length :: E
    let told := (run s0 toReport).net.gw.told.length
    let toDeliver := toReport ++ .net (.gw (.link k (.packet (h.bytes ++ cb)))) :: F
    -- nobody waits for the type; the connection
    ¬ SomebodyWaits (s0.waiters nd.obj) hid → s0.net.gw.conns.get? nd.root = some k → s0.net.gw.links[k]? = some l → NumberFree l.conn ((n + 1) % 256) →
    -- the acknowledgement
    (run s0 toAck).net.gw.links[k]? = some l1 → Outstanding l1.conn n q → AckFor ack q →
    -- the report
    (run s0 toReport).net.gw.conns.get? nd.root = some k → (run s0 toReport).net.gw.links[k]? = some l2 → l2.conn.w.sessions.get? c.hid = none →
    h.Fits → h.ext = false → h.cmd = true → h.ackRequest = false → h.ackResponse = false → h.nackResponse = false → h.src = nd.ep →
    cb ≠ [] → decode cb = .ok c → (c.hid ≠ 0x6C01 ∧ c = m ∨ c.hid = 0x6C01 ∧ c.command = some m) → m.hid = hid →
    -- its delivery
    (run s0 toDeliver).app.nodes.get? nd.id = some nd → .deliver told ∉ F →
    ((run s0 toDeliver).waiters nd.obj).now < ((run s0 toSent).waiters nd.obj).now + timeout →
    -- the rest
    .sent s0.asks.length ∉ A ++ B ++ C ++ D → (∀ o ∈ A ++ B ++ C ++ D ++ E ++ F ++ G, ¬ Disturbs nd.obj hid task k n o) →
    ∃ m', m'.hid = hid ∧ Ended (run s0 (toDeliver ++ .deliver told :: G ++ [.waiter nd.obj (.resume task)])) nd task (.ok m') := by
  intro s0 task call n toAck toSent toReport told toDeliver hnobody hconn hl hfree hl1 hout hack hconn2 hl2 hsess hf hx hcmd hq ha hnk hsrc hne hdec hm hmh hnode hF htime hsent hdist
  have hinv0 : System.Inv s0 := (inv_init own).run ops1
  have hs0 : ∀ l, run (init own) (ops1 ++ l) = run s0 l := fun l => run_append _ _ _
  -- the call
  let s1 := step s0 (.ask nd cmd hid timeout)
  have hinv1 : System.Inv s1 := hinv0.step _
  have hask : s1.asks[s0.asks.length]? = some ⟨nd, task, call⟩ := by
    show (s0.asks ++ [_])[s0.asks.length]? = _
    exact List.getElem?_concat_length
  have hw1 : s1.waiters nd.obj = Waiter.step (s0.waiters nd.obj) (.call .node hid timeout) := by
    have := step_waiters s0 (.ask nd cmd hid timeout) nd.obj
    rw [show s1 = step s0 (.ask nd cmd hid timeout) from rfl, this]
    simp [waitOps, Waiter.run]
  obtain ⟨tag, hi0⟩ : ∃ tag, Waiter.Inv tag (s0.waiters nd.obj) := by
    rw [waiters_init own ops1 nd.obj]; exact Waiter.inv_run _
  have halone : Waiter.Alone (s1.waiters nd.obj) task hid := by
    rw [hw1]
    refine Waiter.Alone.call hi0 (fun j u hu he => Classical.byContradiction fun hn => hnobody ⟨j, u, hu, he, fun r hr => hn ⟨r, hr⟩⟩) _ _
  obtain ⟨tag1, hi1⟩ : ∃ tag, Waiter.Inv tag (s1.waiters nd.obj) := by rw [hw1]; exact hi0.step _
  have htask1 : (s1.waiters nd.obj).tasks[task]? = some ⟨.node, hid, timeout, none, 0, .sending⟩ := by
    rw [hw1]
    exact Waiter.call_task (s0.waiters nd.obj) .node hid timeout
  -- until the send is over
  let mid := A ++ .net (.gw (.link k (.packet ack))) :: B ++ .net (.gw (.link k (.resume n))) :: C ++ .net (.resume call) :: D
  have hmid : run s0 toSent = run s1 mid := by
    have : toSent = .ask nd cmd hid timeout :: mid := by simp [toSent, mid, toAck]
    rw [this]; rfl
  have hdmid : ∀ o ∈ mid, ¬ Disturbs nd.obj hid task k n o := by
    intro o ho
    simp only [mid, List.mem_append, List.mem_cons] at ho
    have sub : ∀ x, (x ∈ A ∨ x ∈ B ∨ x ∈ C ∨ x ∈ D) → ¬ Disturbs nd.obj hid task k n x := 
      fun x hx => hdist x (by rcases hx with hx | hx | hx | hx <;> simp [hx])
    rcases ho with ((ho | rfl | ho) | rfl | ho) | rfl | ho
    · exact sub o (.inl ho)
    · exact id
    · exact sub o (.inr (.inl ho))
    · exact id
    · exact sub o (.inr (.inr (.inl ho)))
    · exact id
    · exact sub o (.inr (.inr (.inr ho)))
  have hsmid : .sent s0.asks.length ∉ mid := by
    intro hx
    apply hsent
    simp only [mid, List.mem_append, List.mem_cons, reduceCtorEq, false_or] at hx ⊢
    exact hx
  have hwm := waits_quiet hdmid hinv1 hask rfl rfl
  obtain ⟨⟨tag2, hi2⟩, hope2, htask2⟩ := Waiter.Hopeful.sending_run (h := hid) rfl (waitProj nd.obj s1 mid) hi1 (.inl halone) htask1
    fun w hw => ⟨(hwm w hw).1.1, (hwm w hw).1.2, ((hwm w hw).2 hsmid).1, ((hwm w hw).2 hsmid).2⟩
  rw [← run_waiters, ← hmid] at hi2 hope2 htask2
  -- the send has succeeded
  have hdone : ∃ c, (run s0 toSent).net.calls[call]? = some c ∧ c.pc = .done (.ok true) := by
    have hnet0 : s0.net = ToNode.run ToNode.init (ops1.flatMap netOps) := net_init own ops1
    have happ : ∀ (P Q : List Op) (o : ToNode.Op), (run s0 (P ++ .net o :: Q)).net = ToNode.run (ToNode.step (run s0 P).net o) (Q.flatMap netOps) := by
      intro P Q o
      rw [run_append, run_cons, run_net, step_net]; rfl
    have hA : (run s0 toAck).net = ToNode.run (ToNode.step s0.net (.send nd.root cmd 0 nd.ep 3)) (A.flatMap netOps) := by
      rw [show run s0 toAck = run s1 A from rfl, run_net, show s1 = step s0 (.ask nd cmd hid timeout) from rfl, step_net]; rfl
    have hkill : ToNode.Op.gw (.link k (.kill n)) ∉ B.flatMap netOps := by
      intro hx
      obtain ⟨o, ho, hx⟩ := List.mem_flatMap.mp hx
      have : o = .net (.gw (.link k (.kill n))) := by
        cases o with
        | ask nd cmd hid timeout => simp [netOps] at hx
        | net o => simp only [netOps, List.mem_singleton] at hx; rw [hx]
        | _ => cases hx
      subst this
      exact hdist (.net (.gw (.link k (.kill n)))) (by simp [ho]) ⟨rfl, rfl⟩
    have hres := ToNode.acked (ops1.flatMap netOps) (A.flatMap netOps) (B.flatMap netOps) (n := nd.root) (k := k) (l := l) (l1 := l1) cmd 0 nd.ep 3 ack q
    dsimp only at hres
    rw [← hnet0, ← hA, ← happ] at hres
    have hres := hres hconn hl hfree hl1 hout hack hkill
    have hT0 := (ToNode.tied_send s0.net hconn hl cmd 0 nd.ep 3).1
    have hT1 : ToNode.Tied (run s0 toAck).net call k n := by rw [hA]; exact hT0.run _
    have hT2 := (hT1.step (.gw (.link k (.packet ack)))).run (B.flatMap netOps)
    rw [← happ] at hT2
    have hT3 := (hT2.step (.gw (.link k (.resume n)))).run (C.flatMap netOps)
    have hres3 := ToNode.linkResult_run hres (C.flatMap netOps)
    rw [← happ] at hT3 hres3
    obtain ⟨c, hc, hp⟩ := ToNode.returns_true hT3 hres3
    exact ⟨c, by rw [show toSent = _ ++ Op.net (.resume call) :: D from rfl, happ]; exact ToNode.done_call_run hp _ hc, hp⟩
  obtain ⟨cc, hcc, hccp⟩ := hdone
  have hinvS : System.Inv (run s0 toSent) := hinv0.run _
  have haskS : (run s0 toSent).asks[s0.asks.length]? = some ⟨nd, task, call⟩ := by rw [hmid]; exact run_asks mid _ _ _ hask
  let s3 := step (run s0 toSent) (.sent s0.asks.length)
  have hw3 : s3.waiters nd.obj = Waiter.step ((run s0 toSent).waiters nd.obj) (.sendDone task true) := by
    rw [show s3 = step (run s0 toSent) (.sent s0.asks.length) from rfl, step_waiters]
    simp only [waitOps, haskS, hcc, hccp, if_true, sendEnded]
    rfl
  have hpast3 := Waiter.past_sendDone htask2 rfl rfl
  have hope3 := hope2.step hi2 (op := .sendDone task true) id (by simp) (by simp) (by simp)
  obtain ⟨tag3, hi3⟩ := hi2.step (.sendDone task true)
  rw [← hw3] at hpast3 hope3 hi3
  -- until the report is delivered
  let rest := E ++ .net (.gw (.link k (.packet (h.bytes ++ cb)))) :: F
  have hrest : run s0 toDeliver = run s3 rest := by
    have : toDeliver = toSent ++ .sent s0.asks.length :: rest := by simp [toDeliver, toReport, rest]
    rw [this, run_append]; rfl
  have hdrest : ∀ o ∈ rest, ¬ Disturbs nd.obj hid task k n o := by
    intro o ho
    simp only [rest, List.mem_append, List.mem_cons] at ho
    rcases ho with ho | rfl | ho
    · exact hdist o (by simp [ho])
    · exact id
    · exact hdist o (by simp [ho])
  have hinv3 : System.Inv s3 := hinvS.step _
  have hask3 : s3.asks[s0.asks.length]? = some ⟨nd, task, call⟩ := run_asks [.sent s0.asks.length] _ _ _ haskS
  have hwr := waits_quiet hdrest hinv3 hask3 rfl rfl
  have hpast4 := hpast3.run (waitProj nd.obj s3 rest)
  have hope4 : Waiter.Hopeful ((run s0 toDeliver).waiters nd.obj) task hid ∨ Waiter.Late ((run s0 toDeliver).waiters nd.obj) task := by
    rw [hrest, run_waiters]
    rcases hope3 with h' | h'
    · exact h'.past_run _ hi3 hpast3 fun w hw => (hwr w hw).1
    · exact .inr (h'.run _ _)
  rw [← run_waiters, ← hrest] at hpast4
  have hope4 : Waiter.Hopeful ((run s0 toDeliver).waiters nd.obj) task hid := by
    rcases hope4 with h' | ⟨t, e1, e2, -, -⟩
    · exact h'
    · obtain ⟨t', f1, -, f2⟩ := hpast4
      rw [e1] at f1; cases f1
      rw [f2] at e2
      exact absurd htime (Nat.not_lt.mpr e2)
  -- the report is told
  obtain ⟨os, hos⟩ := ToNode.gw_run ((ops1 ++ toReport).flatMap netOps)
  have hgw : (run s0 toReport).net.gw = Gateway.run Gateway.init os := by
    rw [← hos, ← net_init own, hs0]
  obtain ⟨t, t1, t2, t3, t4⟩ := told_packet os nd.root k l2 (by rw [← hgw]; exact hconn2) (by rw [← hgw]; exact hl2) h hf hx hcmd hq ha hnk cb c hne hdec hsess
  rw [← hgw] at t1
  have hget : (run s0 toDeliver).net.gw.told[told]? = some t := by
    obtain ⟨new, hnew⟩ := told_run own (ops1 ++ toReport ++ [.net (.gw (.link k (.packet (h.bytes ++ cb))))]) F
    have e1 : run (init own) (ops1 ++ toReport ++ [.net (.gw (.link k (.packet (h.bytes ++ cb))))] ++ F) = run s0 toDeliver := by
      rw [← hs0]
      simp [toDeliver]
    have e2 : (run (init own) (ops1 ++ toReport ++ [.net (.gw (.link k (.packet (h.bytes ++ cb))))])).net.gw.told = (run s0 toReport).net.gw.told ++ [t] := by
      rw [run_snoc, hs0]; exact t1
    rw [← e1, hnew, e2, List.append_assoc, List.getElem?_append_right (Nat.le_refl _)]
    simp
  have hnot : told ∉ (run s0 toDeliver).delivered := by
    have h0 : told ∉ (run s0 toReport).delivered := by
      intro hx
      have := delivered_lt own (ops1 ++ toReport) told (by rw [hs0]; exact hx)
      rw [hs0] at this
      exact Nat.lt_irrefl _ this
    rw [show toDeliver = toReport ++ .net (.gw (.link k (.packet (h.bytes ++ cb)))) :: F from rfl, run_append]
    exact not_delivered_run _ h0 (by simpa using hF)
  -- and handed to the object
  have hhand : handedTo (run s0 toDeliver) told = some (nd, m) := by
    have hkey : App.key t.node h.src = nd.id := by rw [t3, hsrc]; rfl
    have hrec : (Wire.received (run s0 toDeliver).app.nodes (run s0 toDeliver).app.own (fun _ => .ok (.bool true)) (.ok ()) t).1 = [.handed nd] := by
      simp only [Wire.received, t4, App.messageReceived, hkey, hnode]
    have hoff : offered t.message = some m := by
      rw [t2]
      simp only [offered]
      rcases hm with ⟨e1, e2⟩ | ⟨e1, e2⟩
      · rw [if_neg (by exact e1), e2]
      · rw [if_pos (by exact e1), e2]
    simp only [handedTo, if_neg hnot, hget, hrec, hoff, Option.map_some]
  let s5 := step (run s0 toDeliver) (.deliver told)
  have hw5 : s5.waiters nd.obj = Waiter.step ((run s0 toDeliver).waiters nd.obj) (.message m) := by
    rw [show s5 = step (run s0 toDeliver) (.deliver told) from rfl, step_waiters]
    simp only [waitOps, hhand, if_true]
    rfl
  subst hmh
  obtain ⟨m', hres5⟩ := hope4.message hpast4
  have hpast5 := hpast4.step (.message m)
  rw [← hw5] at hres5 hpast5
  -- the call goes on
  have hdG : ∀ o ∈ G, ¬ Disturbs nd.obj m.hid task k n o := fun o ho => hdist o (by simp [ho])
  have hinv5 : System.Inv s5 := (hinv0.run _).step _
  have hask5 : s5.asks[s0.asks.length]? = some ⟨nd, task, call⟩ := by
    refine run_asks [.deliver told] _ _ _ ?_
    rw [hrest]; exact run_asks rest _ _ _ hask3
  have hwG := waits_quiet hdG hinv5 hask5 rfl rfl
  have hres6 := hres5.past_run (waitProj nd.obj s5 G) hpast5 fun hx => (hwG _ hx).1.2 rfl
  have hpast6 := hpast5.run (waitProj nd.obj s5 G)
  rw [← run_waiters] at hres6 hpast6
  have hend := hres6.finish true
  have hfin : run s0 (toDeliver ++ .deliver told :: G ++ [.waiter nd.obj (.resume task)]) = step (run s5 G) (.waiter nd.obj (.resume task)) := by
    rw [run_snoc, run_append]; rfl
  have hwf : (step (run s5 G) (.waiter nd.obj (.resume task))).waiters nd.obj = Waiter.run ((run s5 G).waiters nd.obj) [.sendDone task true, .resume task] := by
    rw [step_waiters]
    simp only [waitOps, System.own, and_self, if_true, Waiter.run_cons, hpast6.idle.1]
  obtain ⟨u, hu, hd⟩ := hend
  rw [← hwf, ← hfin] at hu
  refine ⟨m', ?_, u, hu, hd⟩
  have hall : toDeliver ++ .deliver told :: G ++ [.waiter nd.obj (.resume task)] =
      .ask nd cmd m.hid timeout :: (A ++ .net (.gw (.link k (.packet ack))) :: B ++ .net (.gw (.link k (.resume n))) :: C ++ .net (.resume call) :: D ++
        .sent s0.asks.length :: E ++ .net (.gw (.link k (.packet (h.bytes ++ cb)))) :: F ++ .deliver told :: G ++ [.waiter nd.obj (.resume task)]) := by
    simp [toDeliver, toReport, toSent, toAck]
  have hu' := hu
  rw [hall, ask_waiters own ops1 _ nd cmd m.hid timeout] at hu
  obtain ⟨u', e1, e2, -⟩ := (Waiter.Prov.call (P := fun _ => True) hi0 .node m.hid timeout).run _ (by rw [← hw1]; exact hi1) (fun _ _ => trivial)
  have e : some u = some u' := hu.symm.trans e1
  cases e
  rw [← hs0, waiters_init] at hu'
  rw [C38_requested_type _ _ u m' hu' hd, e2]

/-- The end point has been asked before: its node has a connection. -/
def before140 : List Op := before100 ++ .ask asked (.known 0x2502 []) 0x2503 3 :: after100 2

/-- It is asked again: until the acknowledgement, until the send is over, until the report. In between, time passes and another message is told and delivered. -/
def toAck140 : List Op := [.ask asked (.known 0x2502 []) 0x2503 3, .net (.gw (.link 0 .tick))]
def toSent140 : List Op := toAck140 ++ [.net (.gw (.link 0 (.packet [0x23, 0x02, 0x40, 0x10, 2, 0, 0])))] ++ [.net (.gw (.link 0 (.resume 1)))] ++
  [.net (.resume 1), .waiter 3 .tick]
def toReport140 : List Op := toSent140 ++ [.sent 1, .waiter 3 .tick, .net (.gw (.link 0 (.packet [0x23, 0x02, 0, 0x50, 7, 2, 0, 0x20, 0x03, 0x01]))), .deliver 1, .waiter 3 .tick]
def toDeliver140 : List Op := toReport140 ++ [.net (.gw (.link 0 (.packet [0x23, 0x02, 0, 0x50, 8, 2, 0, 0x25, 0x03, 0x00])))]

/-- Everything the theorem asks for, and what follows. -/
example : let s0 := run (init 1) before140
    (s0.waiters 3).tasks.map (·.pc) = [.done (.ok (.known 0x2503 [("value", .num (.uint 1) 0xFF)]))] ∧ s0.net.calls.length = 1 ∧ s0.asks.length = 1 ∧
    s0.net.gw.conns.get? 3 = some 0 ∧ s0.net.gw.links.map (fun l => l.conn.sends.map fun t => (t.seq, t.pc)) = [[(1, .done (.ok true))]] ∧
    (run s0 toAck140).net.gw.links.map (fun l => l.conn.sends.map fun t => (t.seq, decide (t.pc = .waiting ∧ l.conn.now < t.deadline))) = [[(1, false), (2, true)]] ∧
    (run s0 toReport140).net.gw.conns.get? 3 = some 0 ∧ (run s0 toReport140).net.gw.links.map (fun l => l.conn.w.sessions.get? 0x2503) = [none] ∧
    (run s0 toReport140).net.gw.told.length = 2 ∧ (run s0 toDeliver140).app.nodes.get? asked.id = some asked ∧
    ((run s0 toSent140).waiters 3).now = 1 ∧ ((run s0 toDeliver140).waiters 3).now = 3 ∧
    ((run s0 (toDeliver140 ++ [.deliver 2] ++ [.waiter 3 (.resume 1)])).waiters 3).tasks.map (·.pc) =
      [.done (.ok (.known 0x2503 [("value", .num (.uint 1) 0xFF)])), .done (.ok (.known 0x2503 [("value", .num (.uint 1) 0)]))] := by decide +kernel

end Props.System

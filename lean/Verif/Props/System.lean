import Verif.Spec.System
import Verif.Lemmas.System
import Verif.Lemmas.Origin
import Verif.Lemmas.Fresh
import Verif.Props.ToNode
import Verif.Props.Waiter
import Verif.Props.Application
/-!
# Property theorems C100: the answer of a node
-/
namespace Props.System
open Spec Model Model.System Spec.System
open Model.App (Nd)

/-- Call number `task` of the waiting calls of the node object has ended with `r`. -/
def Ended (s : State) (nd : Nd) (task : Nat) (r : Waiter.Res) : Prop := ∃ u, (s.waiters nd.obj).tasks[task]? = some u ∧ u.pc = .done r

theorem waiters_init (own : Nat) (ops : List Op) (obj : Nat) : (run (init own) ops).waiters obj = Waiter.run Waiter.init (waitProj obj (init own) ops) := run_waiters obj ops _

theorem net_init (own : Nat) (ops : List Op) : (run (init own) ops).net = ToNode.run ToNode.init (ops.flatMap netOps) := run_net ops _

theorem ask_waiters (own : Nat) (ops1 ops2 : List Op) (nd : Nd) (cmd : Msg) (hid timeout : Nat) :
    let s0 := run (init own) ops1
    (run s0 (.ask nd cmd hid timeout :: ops2)).waiters nd.obj =
      Waiter.run (Waiter.step (s0.waiters nd.obj) (.call .node hid timeout)) (waitProj nd.obj (step s0 (.ask nd cmd hid timeout)) ops2) := by
  intro s0
  rw [run_waiters]
  simp only [waitProj, waitOps, if_true, List.singleton_append]
  rfl

/-- As `C100_answer` below, if the object has been in the table at any time before the call. -/
theorem answer_known (own : Nat) (ops1 ops2 : List Op) (nd : Nd) (cmd : Msg) (hid timeout : Nat) (m : Msg) :
    let s0 := run (init own) ops1
    let ask := Op.ask nd cmd hid timeout
    (∃ a b, ops1 = a ++ b ∧ (nd.id, nd) ∈ (run (init own) a).app.nodes) → Ended (run s0 (ask :: ops2)) nd (s0.waiters nd.obj).tasks.length (.ok m) →
    m.hid = hid ∧
    ∃ pre i post c, ops2 = pre ++ .deliver i :: post ∧ Wraps c m ∧
      ∃ before o after, ops1 ++ ask :: pre = before ++ .net (.gw o) :: after ∧ FromNode (run (init own) before).net.gw o nd.root nd.ep c := by
  intro s0 ask ⟨ka, kb, hk, hnd⟩ ⟨u, hu, hd⟩
  have hinv : Inv s0 := (inv_init own).run ops1
  rw [show (run s0 (ask :: ops2)).waiters nd.obj = _ from ask_waiters own ops1 ops2 nd cmd hid timeout] at hu
  have hw : s0.waiters nd.obj = Waiter.run Waiter.init (waitProj nd.obj (init own) ops1) := waiters_init own ops1 nd.obj
  obtain ⟨tag, hi⟩ := Waiter.inv_run (waitProj nd.obj (init own) ops1)
  rw [← hw] at hi
  obtain ⟨tag', hi'⟩ := hi.run [.call .node hid timeout]
  obtain ⟨u', hu', hh, -, h⟩ := (Waiter.Prov.call (P := fun m => .message m ∈ waitProj nd.obj (step s0 ask) ops2)
    hi .node hid timeout).run (waitProj nd.obj (step s0 ask) ops2) hi' (fun m hm => hm)
  have e : some u = some u' := hu.symm.trans hu'
  cases e
  have hmsg : .message m ∈ waitProj nd.obj (step s0 ask) ops2 := h m hd
  have htype : m.hid = hid := by
    rw [hw] at hu
    have e2 : Waiter.run (Waiter.step (Waiter.run Waiter.init (waitProj nd.obj (init own) ops1)) (.call .node hid timeout)) (waitProj nd.obj (step s0 ask) ops2) =
        Waiter.run Waiter.init (waitProj nd.obj (init own) ops1 ++ .call .node hid timeout :: waitProj nd.obj (step s0 ask) ops2) := by
      rw [Waiter.run_append]; rfl
    rw [e2] at hu
    rw [C38_requested_type _ _ u m hu hd, hh]
  refine ⟨htype, ?_⟩
  obtain ⟨pre, o, post, rfl, hm⟩ := mem_waitProj _ _ _ _ hmsg
  obtain ⟨i, nd', rfl, hto, hobj⟩ := message_op hm
  refine ⟨pre, i, post, ?_⟩
  generalize hs1 : run (step s0 ask) pre = s1 at *
  have hs1' : s1 = run s0 (ask :: pre) := hs1.symm
  have hs1'' : s1 = run (init own) (ops1 ++ ask :: pre) := by rw [hs1', run_append]
  simp only [handedTo] at hto
  split at hto
  · cases hto
  · split at hto
    · cases hto
    · rename_i t ht
      split at hto
      · rename_i nd2 hrec
        cases hoff : offered t.message with
        | none => rw [hoff] at hto; cases hto
        | some m' =>
          rw [hoff] at hto
          simp only [Option.map_some, Option.some.injEq, Prod.mk.injEq] at hto
          obtain ⟨rfl, rfl⟩ := hto
          -- the entry of the table
          have hget : ∃ ep : Nat, t.sourceEP = some (ep : Int) ∧ s1.app.nodes.get? (App.key t.node ep) = some nd2 := by
            simp only [Wire.received] at hrec
            split at hrec
            · rename_i ep hep
              refine ⟨ep, hep, ?_⟩
              simp only [App.messageReceived] at hrec
              split at hrec
              · rename_i nd3 hg
                simp only [List.cons.injEq, App.Act.handed.injEq, and_true] at hrec
                rw [hg, hrec]
              · split at hrec <;> simp at hrec
            · split at hrec <;> simp at hrec
          obtain ⟨ep, hep, hg⟩ := hget
          have hmem := Dict.mem_of_get? hg
          have hsame : nd2 = nd := by
            rw [hs1'', hk, List.append_assoc, run_append] at hmem
            exact same_object ((inv_init own).run ka) ⟨_, hnd⟩ (kb ++ ask :: pre) hmem hobj
          subst hsame
          obtain ⟨os, hos⟩ := app_run own (ops1 ++ ask :: pre)
          rw [← hs1''] at hos
          rw [hos] at hmem
          have hkey := (Lemmas.App.w_run own os).ids _ _ hmem
          obtain ⟨k1, k2⟩ := Lemmas.App.key_inj hkey
          -- the message
          obtain ⟨c, hc, hwrap⟩ : ∃ c, t.message = some c ∧ Wraps c m' := by
            cases htm : t.message with
            | none => rw [htm] at hoff; cases hoff
            | some c =>
              refine ⟨c, rfl, ?_⟩
              rw [htm] at hoff
              simp only [offered] at hoff
              split at hoff
              · rename_i hsup
                exact .inr ⟨hsup, hoff⟩
              · cases hoff; exact .inl rfl
          refine ⟨c, rfl, hwrap, ?_⟩
          rw [hs1'', net_init] at ht
          obtain ⟨x, o, y, h1, h2⟩ := ToNode.origin _ i t ht nd2.root nd2.ep c ⟨k1, by rw [hep, k2], hc⟩
          obtain ⟨before, after, h3, h4⟩ := net_split o _ x y h1
          refine ⟨before, o, after, h3, ?_⟩
          rw [net_init, h4]
          exact h2
      · cases hto

/-- **C100**, the answer. For every history: if `sendAndReceive()` on a node object in the table returns a message, the message has the type that was asked for, and it was
delivered to this object after the call was made. It came in a datagram from this node and this end point. -/
theorem C100_answer (own : Nat) (ops1 ops2 : List Op) (nd : Nd) (cmd : Msg) (hid timeout : Nat) (m : Msg) :
    let s0 := run (init own) ops1
    let ask := Op.ask nd cmd hid timeout
    (nd.id, nd) ∈ s0.app.nodes → Ended (run s0 (ask :: ops2)) nd (s0.waiters nd.obj).tasks.length (.ok m) →
    m.hid = hid ∧
    ∃ pre i post c, ops2 = pre ++ .deliver i :: post ∧ Wraps c m ∧
      ∃ before o after, ops1 ++ ask :: pre = before ++ .net (.gw o) :: after ∧ FromNode (run (init own) before).net.gw o nd.root nd.ep c :=
  fun hnd => answer_known own ops1 ops2 nd cmd hid timeout m ⟨ops1, [], by simp, hnd⟩

/-- **C100**, the acknowledgement. If it returns a message, the command was sent to this node and this end point on a connection that was opened for the node, and that connection
received the acknowledgement with the number of the datagram after the call was made. -/
theorem C100_acknowledged (own : Nat) (ops1 ops2 : List Op) (nd : Nd) (cmd : Msg) (hid timeout : Nat) (m : Msg) :
    let s0 := run (init own) ops1
    let ask := Op.ask nd cmd hid timeout
    Ended (run s0 (ask :: ops2)) nd (s0.waiters nd.obj).tasks.length (.ok m) →
    ∃ pre k b post, ops2 = pre ++ .net (.gw (.link k (.packet b))) :: post ∧
      ∃ d l n, (run s0 (ask :: pre)).net.calls[s0.net.calls.length]? = some d ∧ d.node = nd.root ∧ d.cmd = cmd ∧ d.destEP = nd.ep ∧ d.pc = .sending k n ∧
        (run s0 (ask :: pre)).net.gw.links[k]? = some l ∧ l.node = nd.root ∧ AckFor b ((n + 1) % 256) := by
  intro s0 ask ⟨u, hu, hd⟩
  have hinv : Inv s0 := (inv_init own).run ops1
  rw [show (run s0 (ask :: ops2)).waiters nd.obj = _ from ask_waiters own ops1 ops2 nd cmd hid timeout] at hu
  have hnew := Waiter.call_task (s0.waiters nd.obj) .node hid timeout
  have hsd := Waiter.node_sent _ _ _ _ hnew rfl rfl u m hu hd
  obtain ⟨p1, o, p2, h1, h2⟩ := mem_waitProj _ _ _ _ hsd
  obtain ⟨a, q, c, rfl, hq, hobj, htask, hcall, hpc⟩ := sendDone_op h2
  -- it is this call
  have hmine : (step s0 ask).asks[s0.asks.length]? = some ⟨nd, (s0.waiters nd.obj).tasks.length, s0.net.calls.length⟩ := by
    show (s0.asks ++ [_])[s0.asks.length]? = _
    simp
  have hinv1 : Inv (run (step s0 ask) p1) := (hinv.step ask).run p1
  have hmine' := run_asks p1 _ _ _ hmine
  have := hinv1.uniq _ _ _ _ hq hmine' hobj htask
  subst this
  rw [hmine'] at hq
  cases hq
  -- its send
  have hrun : run (step s0 ask) p1 = run (init own) (ops1 ++ ask :: p1) := by rw [run_append]; rfl
  rw [hrun, net_init] at hcall
  obtain ⟨x, y, d, k, n, e1, e2, e3, e4, e5⟩ := ToNode.returned _ _ c true hcall hpc
  rw [e5] at e4
  obtain ⟨before, b, after, f1, f2, f3⟩ := Props.ToNode.C97_true x _ k n d e2 e3 e4
  rw [f1, List.append_assoc] at e1
  obtain ⟨pre, post, g1, g2⟩ := net_split (.link k (.packet b)) (ops1 ++ ask :: p1) before (after ++ .resume s0.net.calls.length :: y) e1
  -- where it is in the schedule
  have hlen : s0.net.calls.length < (run (init own) pre).net.calls.length := by
    rw [net_init own pre, g2]; exact (List.getElem?_eq_some_iff.mp f3).1
  have hmono : ∀ (s : State) (l : List Op), s.net.calls.length ≤ (run s l).net.calls.length := by
    intro s l
    rw [run_net]
    rcases Nat.lt_or_ge 0 s.net.calls.length with h | h
    · obtain ⟨d', h', -⟩ := ToNode.run_same (l.flatMap netOps) s.net (i := s.net.calls.length - 1) (c := s.net.calls[s.net.calls.length - 1]) (List.getElem?_eq_getElem (by omega))
      have := (List.getElem?_eq_some_iff.mp h').1
      omega
    · omega
  have hpos : ∃ pre', pre = ops1 ++ ask :: pre' ∧ p1 = pre' ++ .net (.gw (.link k (.packet b))) :: post := by
    rcases List.append_eq_append_iff.mp g1 with ⟨z, z1, z2⟩ | ⟨z, z1, z2⟩
    · cases z with
      | nil =>
        simp only [List.nil_append, List.append_nil] at z1 z2
        exfalso
        rw [z1] at hlen
        exact Nat.lt_irrefl _ hlen
      | cons w z =>
        simp only [List.cons_append, List.cons.injEq] at z2
        obtain ⟨rfl, z2⟩ := z2
        exact ⟨z, z1, z2⟩
    · exfalso
      have : s0 = run (run (init own) pre) z := by rw [← run_append, ← z1]
      have h' := hmono (run (init own) pre) z
      rw [← this] at h'
      omega
  obtain ⟨pre', q1, q2⟩ := hpos
  refine ⟨pre', k, b, post ++ .sent s0.asks.length :: p2, by rw [h1, q2]; simp, ?_⟩
  have hst : run s0 (ask :: pre') = run (init own) pre := by rw [q1, run_append]
  have hnet : (run s0 (ask :: pre')).net = ToNode.run ToNode.init before := by rw [hst, net_init, g2]
  obtain ⟨c0, c1, c2, c3, c4, c5, c6⟩ := ToNode.send_new s0.net nd.root cmd 0 nd.ep 3
  obtain ⟨d', d1, d2, d3, d4, d5, d6⟩ := ToNode.run_same (pre'.flatMap netOps) _ c1
  have hd' : (run s0 (ask :: pre')).net.calls[s0.net.calls.length]? = some d' := by
    rw [run_net]; exact d1
  have hdd : d = d' := by
    rw [hnet, f3] at hd'
    exact Option.some.inj hd'
  subst hdd
  have hok := (ToNode.inv_run before).calls _ d f3
  simp only [ToNode.CallOk, e3] at hok
  obtain ⟨l, l1, l2, -⟩ := hok
  exact ⟨d, l, n, hd', d2.trans c2, d3.trans c3, d5.trans c5, e3, by rw [hnet]; exact l1, by rw [l2, d2, c2], f2⟩

/-- The end point 2 of node 3 is asked for the state of its switch. -/
def asked : Nd := ⟨3, 3, 2, Props.App.plain⟩

/-- The application has started. -/
def before100 : List Op := (.start .startup :: Props.App.answers123.map (.answer 0)).map .app ++ [.net (.gw (.conn .connect))]

/-- The address of node 3 is looked up, the connection is opened, the command is sent and acknowledged. A report arrives from the end point `ep`. -/
def after100 (ep : UInt8) : List Op :=
  [.net (.gw (.conn (.packet ([0x58, 0x01, 0, 3] ++ List.replicate 15 0xFD ++ [3] ++ [1, 2, 3, 4])))),
   .net (.gw (.conn (.waiter (.resume 0)))), .net (.gw (.job 0 [])), .net (.gw (.opened 0 true)), .net (.resume 0),
   .net (.gw (.link 0 (.packet [0x23, 0x02, 0x40, 0x10, 1, 0, 0]))), .net (.gw (.link 0 (.resume 0))), .net (.resume 0), .sent 0,
   .net (.gw (.link 0 (.packet [0x23, 0x02, 0, 0x50, 7, ep, 0, 0x25, 0x03, 0xFF]))), .deliver 0, .waiter 3 (.resume 0)]

/-- A report from this end point is returned, one from another end point is not. -/
example : let s0 := run (init 1) before100
    let s := run s0 (.ask asked (.known 0x2502 []) 0x2503 3 :: after100 2)
    let s' := run s0 (.ask asked (.known 0x2502 []) 0x2503 3 :: after100 1)
    (asked.id, asked) ∈ s0.app.nodes ∧ (s0.waiters 3).tasks.length = 0 ∧
    (s.waiters 3).tasks.map (·.pc) = [.done (.ok (.known 0x2503 [("value", .num (.uint 1) 0xFF)]))] ∧
    s'.net.gw.told.length = 1 ∧ (s'.waiters 3).tasks.map (·.pc) = [.waiting] := by decide +kernel

end Props.System

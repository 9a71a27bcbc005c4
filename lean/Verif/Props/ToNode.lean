import Verif.Lemmas.ToNode
import Verif.Props.Conn
import Verif.Props.Gateway
/-!
# Property theorems C97: sending to a node
-/
namespace Props.ToNode
open Spec Model Model.ToNode

/-- The datagram that carries the command `cb` with number `q` from end point `src` to end point `dst`. -/
def datagram (q src dst : Nat) (cb : Bytes) : Bytes := ZipHeader.bytes { ackRequest := true, cmd := true, secure := true, seq := q, src := src, dst := dst } ++ cb

/-- The datagram, byte by byte. -/
example : datagram 0x12 0 3 [0x25, 0x01, 0xFF] = [0x23, 0x02, 0x80, 0x50, 0x12, 0, 3, 0x25, 0x01, 0xFF] := by decide

/-- The connection `c'` is waiting for the acknowledgement of the send that `c` did not have yet, for `timeout` seconds (or has refused it, as there are 256 others). -/
def Waiting (c c' : Conn.State) (timeout : Nat) : Prop :=
  ∃ t, c'.sends = c.sends ++ [t] ∧ (t.pc = .waiting ∧ t.deadline = c.now + timeout ∨ t.pc = .done (.error .duplicateAck))

/-- The command goes out on the connection `k`, in one datagram, and nothing is sent on any other connection. `q` is its number. -/
def SentOn (s s' : State) (k q src dst timeout : Nat) (cb : Bytes) : Prop :=
  (∃ l l', s.gw.links[k]? = some l ∧ s'.gw.links[k]? = some l' ∧ l'.conn.out = l.conn.out ++ [datagram q src dst cb] ∧ Waiting l.conn l'.conn timeout) ∧
  (∀ k', k' ≠ k → s'.gw.links[k']? = s.gw.links[k']?) ∧ s'.gw.conn = s.gw.conn

theorem sent_of_issue (ops : List Op) (s : State) (hs : s.gw.links = (run init ops).gw.links) (k : Nat) (l : Gateway.Link) (hl : s.gw.links[k]? = some l)
    (hcon : l.conn.connected = true) (cmd : Msg) (cb : Bytes) (src dst timeout : Nat) (hc : compose cmd = .ok cb) (hsrc : src < 128) (hdst : dst < 128) :
    let g := Gateway.step s.gw (.link k (.send cmd src dst timeout))
    (∃ l', g.links[k]? = some l' ∧ l'.conn.out = l.conn.out ++ [datagram ((l.conn.sends.length + 1) % 256) src dst cb] ∧ Waiting l.conn l'.conn timeout) ∧
    (∀ k', k' ≠ k → g.links[k']? = s.gw.links[k']?) ∧ g.conn = s.gw.conn := by
  intro g
  have hrun : l.conn = Conn.run Conn.init (proj k init ops) := link_conn ops k l (by rw [← hs]; exact hl)
  have h33 := Props.C33_transmitted (proj k init ops) cmd cb src dst timeout hc hsrc hdst (by rw [← hrun]; exact hcon)
  rw [← hrun] at h33
  obtain ⟨l', e1, -, -, e4⟩ := Gateway.step_link_node k s.gw (.link k (.send cmd src dst timeout)) l hl
  have he : l'.conn = Conn.step l.conn (.send cmd src dst timeout) := by rw [e4]; simp [Gateway.linkOps, Conn.run]
  refine ⟨⟨l', e1, ?_, ?_⟩, fun k' hk => ?_, ?_⟩
  · rw [he]; exact h33
  · rw [he]
    rw [Conn.step] at h33 ⊢
    rcases Conn.send_cases l.conn cmd src dst timeout with ⟨e, hp, -, -⟩ | ⟨b, -, -, -, h⟩ | ⟨b, -, -, -, h⟩
    · exfalso
      have : (Conn.send l.conn cmd src dst timeout).out = l.conn.out := by simp only [Conn.send, hp, Conn.transmitAndWait]
      rw [this] at h33
      have := congrArg List.length h33
      simp at this
    · exact ⟨_, h, .inr rfl⟩
    · exact ⟨_, h, .inl ⟨rfl, rfl⟩⟩
  · obtain ⟨h1, h2⟩ := Gateway.step_links k' s.gw (.link k (.send cmd src dst timeout))
    have hno : Gateway.linkOps k' s.gw (.link k (.send cmd src dst timeout)) = [] := by simp [Gateway.linkOps, Ne.symm hk]
    cases hk' : s.gw.links[k']? with
    | none =>
      have hlen := List.getElem?_eq_none_iff.mp hk'
      have : g.links.length = s.gw.links.length := by
        simp only [g, Gateway.step, hl]
        obtain ⟨t, h⟩ := Gateway.onMessageReceived_frame k ((Conn.step l.conn (.send cmd src dst timeout)).heard.drop l.conn.heard.length)
          { s.gw with links := s.gw.links.set k ({ l with conn := Conn.step l.conn (.send cmd src dst timeout) } : Gateway.Link) }
        rw [h]; simp
      exact List.getElem?_eq_none_iff.mpr (by omega)
    | some x =>
      rw [h1 x hk', hno]; rfl
  · simp only [g, Gateway.step, hl]
    obtain ⟨t, h⟩ := Gateway.onMessageReceived_frame k ((Conn.step l.conn (.send cmd src dst timeout)).heard.drop l.conn.heard.length)
      { s.gw with links := s.gw.links.set k ({ l with conn := Conn.step l.conn (.send cmd src dst timeout) } : Gateway.Link) }
    rw [h]

/-- **C97.** If there is a connection to the node, `sendToNode()` sends the command at once, in one datagram on that connection (numbered consecutively, from and to the
given end points), sends nothing else anywhere, and waits for its timeout. -/
theorem C97_connected (ops : List Op) (n k : Nat) (l : Gateway.Link) (cmd : Msg) (cb : Bytes) (src dst timeout : Nat)
    (hk : (run init ops).gw.conns.get? n = some k) (hl : (run init ops).gw.links[k]? = some l) (hcon : l.conn.connected = true)
    (hc : compose cmd = .ok cb) (hs : src < 128) (hd : dst < 128) :
    l.node = n ∧ SentOn (run init ops) (step (run init ops) (.send n cmd src dst timeout)) k ((l.conn.sends.length + 1) % 256) src dst timeout cb := by
  have hinv := inv_run ops
  generalize hS : run init ops = s at *
  have hnode : l.node = n := by
    have := hinv.links.conns n k (Dict.mem_of_get? hk)
    rw [List.getElem?_map, hl] at this
    simpa using this
  refine ⟨hnode, ?_⟩
  have hg : Gateway.step s.gw (.connectToNode n) = s.gw.addJob (.done (.ok (.conn k))) := by
    simp only [Gateway.step, Gateway.connectToNode, hk]
  have hp : step s (.send n cmd src dst timeout) =
      ⟨Gateway.step (s.gw.addJob (.done (.ok (.conn k)))) (.link k (.send cmd src dst timeout)),
        (s.calls ++ [(⟨n, cmd, src, dst, timeout, .connecting s.gw.jobs.length⟩ : Call)]).set s.calls.length ⟨n, cmd, src, dst, timeout, .sending k l.conn.sends.length⟩⟩ := by
    simp only [step, sendToNode, hg, proceed, List.getElem?_concat_length, Gateway.State.addJob, sendCount, hl]
  obtain ⟨⟨l', e1, e2, e5⟩, e3, e4⟩ := sent_of_issue ops ⟨s.gw.addJob (.done (.ok (.conn k))), s.calls⟩ (by rw [hS]; rfl) k l hl hcon cmd cb src dst timeout hc hs hd
  rw [hp]
  exact ⟨⟨l, l', hl, e1, e2, e5⟩, e3, e4⟩

/-- **C97.** Otherwise, when the connection has been opened, the call sends the command on it, in the same way. The connection is one opened for that node. -/
theorem C97_opened (ops : List Op) (i j k : Nat) (c : Call) (l : Gateway.Link) (cb : Bytes) (src dst : Nat)
    (hi : (run init ops).calls[i]? = some c) (hp : c.pc = .connecting j) (hj : (run init ops).gw.jobs[j]? = some (.done (.ok (.conn k))))
    (hl : (run init ops).gw.links[k]? = some l) (hcon : l.conn.connected = true)
    (hc : compose c.cmd = .ok cb) (hes : c.sourceEP = src) (hed : c.destEP = dst) (hs : src < 128) (hd : dst < 128) :
    l.node = c.node ∧ SentOn (run init ops) (step (run init ops) (.resume i)) k ((l.conn.sends.length + 1) % 256) src dst c.timeout cb := by
  have hinv := inv_run ops
  generalize hS : run init ops = s at *
  have hok := hinv.calls i c hi
  simp only [CallOk, hp] at hok
  obtain ⟨l0, h0, hn⟩ := connected_job hok hj
  rw [hl] at h0; cases h0
  refine ⟨hn, ?_⟩
  have hst : step s (.resume i) = ⟨Gateway.step s.gw (.link k (.send c.cmd src dst c.timeout)), s.calls.set i { c with pc := .sending k (sendCount s.gw k) }⟩ := by
    simp only [step, proceed, hi, hp, hj, hes, hed]
  obtain ⟨⟨l', e1, e2, e5⟩, e3, e4⟩ := sent_of_issue ops s (by rw [hS]) k l hl hcon c.cmd cb src dst c.timeout hc hs hd
  rw [hst]
  exact ⟨⟨l, l', hl, e1, e2, e5⟩, e3, e4⟩

/-- **C97.** Without a connection nothing but a request for the address of the node is sent, on the gateway's own connection; the connections to nodes are left alone. -/
theorem C97_unconnected (ops : List Op) (n : Nat) (cmd : Msg) (src dst : Int) (timeout : Nat) (hk : (run init ops).gw.conns.get? n = none) (hn : n < 256)
    (hcon : (run init ops).gw.conn.connected = true) :
    let s := run init ops
    let s' := step s (.send n cmd src dst timeout)
    s'.gw.links = s.gw.links ∧ s'.gw.conn.out = s.gw.conn.out ++ [[0x58, 0x04, 0, UInt8.ofNat n]] := by
  intro s s'
  have hp : s' = ⟨Gateway.step s.gw (.connectToNode n), s.calls ++ [⟨n, cmd, src, dst, timeout, .connecting s.gw.jobs.length⟩]⟩ := by
    simp only [s', step, sendToNode, proceed, List.getElem?_concat_length]
    simp only [Gateway.step, Gateway.connectToNode, s, hk, Gateway.ipOfNode, Props.Gateway.solicitation_bytes n hn, Gateway.lookup, Gateway.State.addJob, List.getElem?_concat_length]
  rw [hp]
  simp only [Gateway.step, Gateway.connectToNode, s, hk, Gateway.ipOfNode, Props.Gateway.solicitation_bytes n hn, Gateway.lookup, Gateway.State.addJob, Conn.transmit, hcon, if_true, and_self]

/-- **C97.** If the connection cannot be opened (no answer about the address, or no socket), the call raises and sends nothing. -/
theorem C97_raises (ops : List Op) (i j : Nat) (c : Call) (e : PyErr) (hi : (run init ops).calls[i]? = some c) (hp : c.pc = .connecting j)
    (hj : (run init ops).gw.jobs[j]? = some (.done (.error e))) :
    (step (run init ops) (.resume i)).calls[i]? = some { c with pc := .done (.error e) } ∧ (step (run init ops) (.resume i)).gw = (run init ops).gw := by
  simp only [step, proceed, hi, hp, hj]
  exact ⟨List.getElem?_set_self (List.getElem?_eq_some_iff.mp hi).1, trivial⟩

/-- **C97.** Whatever happens: a datagram that a call of `sendToNode()` sends on a connection to a node carries the command of that call, to the node of that call, and
a call sends its command once. -/
theorem C97_only (ops : List Op) (o : Op) (hno : ∀ g, o ≠ .gw g) (k : Nat) (l : Gateway.Link) (hl : (run init ops).gw.links[k]? = some l) :
    ∃ l', (step (run init ops) o).gw.links[k]? = some l' ∧ l'.node = l.node ∧ l'.address = l.address ∧ (l'.conn = l.conn ∨
      ∃ (i : Nat) (c : Call), (step (run init ops) o).calls[i]? = some c ∧ c.pc = .sending k l.conn.sends.length ∧ c.node = l.node ∧
        (∀ d : Call, (run init ops).calls[i]? = some d → ∃ j, d.pc = .connecting j) ∧ l'.conn = Conn.step l.conn (.send c.cmd c.sourceEP c.destEP c.timeout)) := by
  cases o with
  | gw g => exact absurd rfl (hno g)
  | resume i =>
    obtain ⟨l', e1, e2, e3, e4⟩ := proceed_only (inv_run ops) i k l hl
    refine ⟨l', e1, e2, e3, e4.imp id fun ⟨c, d, j, h1, h2, h3, h4, h5, h6⟩ => ⟨i, c, h1, h2, h3, fun d' hd' => ?_, h6⟩⟩
    rw [h4] at hd'; cases hd'; exact ⟨j, h5⟩
  | send node cmd src dst timeout =>
    have hg : (Gateway.step (run init ops).gw (.connectToNode node)).links[k]? = some l := by
      obtain ⟨x, j, h⟩ := Gateway.connectToNode_frame (run init ops).gw node
      have hg : (Gateway.step (run init ops).gw (.connectToNode node)).links = (run init ops).gw.links := by simp only [Gateway.step, h]; rfl
      rw [hg]; exact hl
    obtain ⟨l', e1, e2, e3, e4⟩ := proceed_only ((inv_run ops).start node cmd src dst timeout) (run init ops).calls.length k l hg
    refine ⟨l', e1, e2, e3, e4.imp id fun ⟨c, d, j, h1, h2, h3, h4, h5, h6⟩ => ⟨_, c, h1, h2, h3, fun d' hd' => ?_, h6⟩⟩
    have := (List.getElem?_eq_some_iff.mp hd').1
    omega

/-- **C97.** `sendToNode()` returns True only if the node's connection has acknowledged the datagram after it was sent: with the number it was sent with. -/
theorem C97_true (ops : List Op) (i k m : Nat) (c : Call) (hi : (run init ops).calls[i]? = some c) (hp : c.pc = .sending k m)
    (hd : (step (run init ops) (.resume i)).calls[i]? = some { c with pc := .done (.ok true) }) :
    ∃ before b after, ops = before ++ .gw (.link k (.packet b)) :: after ∧ AckFor b ((m + 1) % 256) ∧ (run init before).calls[i]? = some c := by
  have hinv := inv_run ops
  have hok := hinv.calls i c hi
  simp only [CallOk, hp] at hok
  obtain ⟨l, hl, -, hm⟩ := hok
  have hrun := link_conn ops k l hl
  have hr : linkResult (run init ops).gw k m = some (.ok true) := by
    simp only [step, proceed, hi, hp] at hd
    cases hr : linkResult (run init ops).gw k m with
    | none =>
      rw [hr] at hd; rw [hi] at hd
      have : c.pc = .done (.ok true) := by have := congrArg (Option.map Call.pc) hd; simpa using this
      rw [hp] at this; cases this
    | some r =>
      rw [hr] at hd
      rw [List.getElem?_set_self (List.getElem?_eq_some_iff.mp hi).1] at hd
      have : Pc.done r = .done (.ok true) := by have := congrArg (Option.map Call.pc) hd; simpa using this
      cases this; rfl
  simp only [linkResult, hl] at hr
  obtain ⟨t, ht⟩ : ∃ t, l.conn.sends[m]? = some t := ⟨_, List.getElem?_eq_getElem hm⟩
  simp only [ht] at hr
  have hpc : t.pc = .done (.ok true) := by
    split at hr
    · rename_i r hr'; cases hr; exact hr'
    · cases hr
  obtain ⟨x, b, y, u, h1, h2, h3, -⟩ := Props.C29_true_only_after_ack (proj k init ops) m t (by rw [← hrun]; exact ht) hpc
  have hseq : t.seq = (m + 1) % 256 := (Props.C33_consecutive (proj k init ops) m t (by rw [← hrun]; exact ht)).1
  obtain ⟨before, after, e1, e2, e3⟩ := proj_split k b ops init x y h1
  refine ⟨before, b, after, e1, by rw [← hseq]; exact h2, ?_⟩
  obtain ⟨lb, hlb⟩ := Option.isSome_iff_exists.mp e3
  have hrb := link_conn before k lb hlb
  rw [e2] at hrb
  refine back (.gw (.link k (.packet b)) :: after) (inv_run before) hlb (m := m) ?_ ?_ hp
  · rw [hrb]; exact (List.getElem?_eq_some_iff.mp h3).1
  · rw [← run_append, ← e1]; exact hi

/-- **C97.** `sendToNode()` ends when the send on the connection has ended, with the same result or exception. -/
theorem C97_result (ops : List Op) (i k m : Nat) (c : Call) (l : Gateway.Link) (t : Conn.Send) (r : Py Bool) (hi : (run init ops).calls[i]? = some c) (hp : c.pc = .sending k m)
    (hl : (run init ops).gw.links[k]? = some l) (ht : l.conn.sends[m]? = some t) :
    (step (run init ops) (.resume i)).calls[i]? = some { c with pc := .done r } ↔ t.pc = .done r := by
  have hr : linkResult (run init ops).gw k m = match t.pc with | .done r => some r | _ => none := by simp only [linkResult, hl, ht]; cases t.pc <;> rfl
  simp only [step, proceed, hi, hp, hr]
  have hlt := (List.getElem?_eq_some_iff.mp hi).1
  cases hpc : t.pc with
  | done r' =>
    simp only [List.getElem?_set_self hlt, Conn.Pc.done.injEq, Option.some.injEq]
    exact ⟨fun h => by injection h with _ _ _ _ _ h; injection h, fun h => by rw [h]⟩
  | _ =>
    simp only [hi]
    refine ⟨fun h => ?_, nofun⟩
    have := congrArg (Option.map Call.pc) h
    rw [Option.map_some, Option.map_some, hp] at this
    cases this

/-- **C97.** A command sent with `Node.send()` of an end point goes from end point 0 to that end point, with the node's id. -/
theorem C97_node (s : State) (n ep : Nat) (cmd : Msg) (timeout : Nat) : nodeSend s n ep cmd timeout = step s (.send n cmd 0 ep timeout) := rfl

/-- A node that has to be found first: its address is asked for, the socket is opened, the command goes out to end point 3, and is acknowledged. A second command
(to the node itself) is sent at once and is not acknowledged in time. -/
def example97 : List Op :=
  [.gw (.conn .connect), .send 5 (.known 0x8613 [("requestedCommandClass", .num (.uint 1) 0x25)]) 0 3 3,
   .gw (.conn (.packet ([0x58, 0x01, 0, 5] ++ List.replicate 15 0xFD ++ [5] ++ [1, 2, 3, 4]))),
   .gw (.conn (.waiter (.resume 0))), .gw (.job 0 []), .gw (.opened 0 true), .resume 0,
   .gw (.link 0 (.packet [0x23, 0x02, 0x40, 0x10, 1, 0, 0])), .gw (.link 0 (.resume 0)), .resume 0,
   .send 5 (.known 0x2502 []) 0 0 2, .gw (.link 0 .tick), .gw (.link 0 .tick), .gw (.link 0 (.timer 1)), .gw (.link 0 (.resume 1)), .gw (.link 0 (.cancelled 1)), .resume 1]

example : ((run init example97).gw.links.map fun l => (l.node, l.conn.out), (run init example97).calls.map fun c => (c.node, c.pc)) =
    ([(5, [datagram 1 0 3 [0x86, 0x13, 0x25], datagram 2 0 0 [0x25, 0x02]])], [(5, .done (.ok true)), (5, .done (.ok false))]) := by decide +kernel

/-- The states in which the theorems above apply: the socket has been opened, and then the connection is at hand. -/
example : let s := run init (example97.take 6)
    s.calls.map (·.pc) = [.connecting 0] ∧ s.gw.jobs = [.done (.ok (.conn 0))] ∧ s.gw.links.map (·.conn.connected) = [true] := by decide +kernel
example : let s := run init (example97.take 10)
    s.gw.conns.get? 5 = some 0 ∧ s.gw.conns.get? 6 = none ∧ s.gw.conn.connected = true ∧ s.gw.links.map (·.conn.connected) = [true] := by decide +kernel

/-- Nobody answers about the address: the call raises. -/
example : let s := run init ([.gw (.conn .connect), .send 5 (.known 0x2502 []) 0 0 3] ++ List.replicate 3 (.gw (.conn .tick)) ++
      [.gw (.conn (.waiter .tick)), .gw (.conn (.waiter .tick)), .gw (.conn (.waiter .tick)), .gw (.conn (.waiter (.timer 0))), .gw (.conn (.waiter (.resume 0))),
       .gw (.conn (.waiter (.cancelDone 0))), .gw (.job 0 []), .resume 0])
    s.gw.jobs = [.done (.error .timeout)] ∧ s.calls.map (·.pc) = [.done (.error .timeout)] := by decide +kernel

end Props.ToNode

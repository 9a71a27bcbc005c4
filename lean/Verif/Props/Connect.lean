import Verif.Lemmas.GatewayConn
import Verif.Model.Connect
import Verif.Lemmas.ModeCall
import Verif.Props.GatewayTime
import Verif.Props.Conn
/-!
# Property theorems C124, C125: `connect()` of the gateway
-/
namespace Props.Connect
open Spec Model Model.Connect Props.Gateway
open Model.Gateway (ModeCall Ended)

/-- Call `i` of `connect()` is suspended there (or has ended with this result) after these operations. -/
def At (ops : List Op) (i : Nat) (pc : Pc) : Prop := (run init ops).calls[i]? = some pc

theorem run_snoc (s : State) (ops : List Op) (o : Op) : run s (ops ++ [o]) = step (run s ops) o := by simp [run]

theorem run_append (s : State) (l l' : List Op) : run s (l ++ l') = run (run s l) l' := by simp [run]

/-- The datagrams that arrive on the connection to the gateway. -/
def packets (l : List Op) : List Bytes := l.filterMap fun | .gw (.conn (.packet b)) => some b | _ => none

/-! ## Lifting what is known about gateways and connections -/

section
attribute [local irreducible] Gateway.step

theorem gw_step (s : State) (o : Op) : ∃ l, (step s o).gw = Gateway.run s.gw l ∧ Gateway.ownPackets l = packets [o] := by
  cases o with
  | connect => exact ⟨[], rfl, rfl⟩
  | gw o =>
    refine ⟨[o], rfl, ?_⟩
    cases o with
    | conn c => cases c <;> rfl
    | _ => rfl
  | opened i a =>
    simp only [step, opened]
    split
    · split
      · refine ⟨[.conn .connect, .setMode 1], ?_, rfl⟩
        simp only [State.goto, connected]
      · exact ⟨[], rfl, rfl⟩
    · exact ⟨[], rfl, rfl⟩
  | listened i ok =>
    simp only [step, listened]
    generalize setDestination = msg
    split
    · split
      · split
        · exact ⟨[], rfl, rfl⟩
        · rename_i m
          exact ⟨[.conn (.send m 0 0 3)], rfl, rfl⟩
      · exact ⟨[], rfl, rfl⟩
    · exact ⟨[], rfl, rfl⟩
  | resume i order =>
    simp only [step, proceed]
    split
    · split <;> exact ⟨[], rfl, rfl⟩
    · split
      · exact ⟨[], rfl, rfl⟩
      · exact ⟨[.setup order], rfl, rfl⟩
      · exact ⟨[], rfl, rfl⟩
    · split <;> exact ⟨[], rfl, rfl⟩
    · exact ⟨[], rfl, rfl⟩

end

theorem gw_after (s : State) (ops : List Op) : ∃ l, (run s ops).gw = Gateway.run s.gw l ∧ Gateway.ownPackets l = packets ops := by
  induction ops generalizing s with
  | nil => exact ⟨[], rfl, rfl⟩
  | cons o ops ih =>
    obtain ⟨l1, e1, p1⟩ := gw_step s o
    obtain ⟨l2, e2, p2⟩ := ih (step s o)
    refine ⟨l1 ++ l2, ?_, ?_⟩
    · rw [show run s (o :: ops) = run (step s o) ops from rfl, e2, e1]; simp [Gateway.run]
    · rw [Gateway.ownPackets, List.filterMap_append, ← Gateway.ownPackets, ← Gateway.ownPackets, p1, p2, packets, packets, packets, ← List.filterMap_append]
      rfl

theorem gw_run (ops : List Op) : ∃ l, (run init ops).gw = Gateway.run Gateway.init l ∧ Gateway.ownPackets l = packets ops := gw_after init ops

/-- If a send on the gateway's connection returned True then it was acknowledged. -/
theorem acked (ops : List Op) (k : Nat) (t : Conn.Send) (ht : (run init ops).gw.conn.sends[k]? = some t) (hd : t.pc = .done (.ok true)) :
    ∃ b, b ∈ packets ops ∧ AckFor b ((k + 1) % 256) := by
  obtain ⟨l, e1, p1⟩ := gw_run ops
  obtain ⟨l', e2, p2⟩ := Gateway.conn_run l
  rw [← e1] at e2
  have hs : (Conn.run Conn.init l').sends[k]? = some t := by
    rw [← ht]
    exact (congrArg (fun c : Conn.State => c.sends[k]?) e2).symm
  obtain ⟨pre, b, post, u, h1, h2, -, -⟩ := Props.C29_true_only_after_ack l' k t hs hd
  rw [(Conn.inv_run l').seqs k t hs] at h2
  refine ⟨b, ?_, h2⟩
  rw [← p1, ← p2, h1]
  simp [Gateway.connPackets]

/-! ## C124 -/

/-- What is sent to register the destination. -/
def register : Bytes := [0x5F, 0x08, 0, 0, 0, 0, 0, 0, 0, 0, 0, 0, 0xFF, 0xFF, 192, 168, 0, 49, 0x10, 0x1B]

/-- The gateway has said that it is in mode 1, or has acknowledged the command to go there. -/
def ModeOne (ops : List Op) : Prop :=
  (∃ b m, b ∈ packets ops ∧ Delivers b m ∧ m.hid = 0x5F03 ∧ m.num? "mode" = some 1) ∨
  ∃ b q, b ∈ packets ops ∧ AckFor b q ∧ (gatewayHeader q).bytes ++ [0x5F, 0x01, 1] ∈ (run init ops).gw.conn.out

/-- The gateway has acknowledged the destination of unsolicited messages. -/
def Registered (ops : List Op) : Prop :=
  ∃ b q, b ∈ packets ops ∧ AckFor b q ∧ (gatewayHeader q).bytes ++ register ∈ (run init ops).gw.conn.out

/-- The full property: when `connect()` has returned, the gateway is in the right mode and knows where to send unsolicited messages. -/
def C124_statement : Prop := ∀ (ops : List Op) (i : Nat), At ops i (.done (.ok ())) → ModeOne ops ∧ Registered ops

def wait3 : List Op := [.gw (.conn .tick), .gw (.conn .tick), .gw (.conn .tick)]

/-- The send `k` is not acknowledged for three seconds. -/
def noAck (k : Nat) : List Op := wait3 ++ [.gw (.conn (.timer k)), .gw (.conn (.resume k)), .gw (.conn (.cancelled k))]

/-- The coroutine `j` waits for a report with the call `t`, which does not arrive for three seconds. -/
def noReport (j t : Nat) : List Op :=
  .gw (.job j []) :: wait3 ++ [.gw (.conn (.waiter (.timer t))), .gw (.conn (.waiter (.resume t))), .gw (.conn (.waiter (.cancelDone t))), .gw (.job j [])]

/-- A gateway that never answers anything. The local address of the socket is `a`. -/
def silent (a : Bytes) : List Op :=
  [.connect, .opened 0 (some a)] ++ noAck 0 ++ noReport 0 0 ++ [.resume 0 [], .listened 0 true] ++ noAck 1 ++ [.resume 0 []] ++ noAck 2 ++ noReport 1 1 ++ [.resume 0 []]

/-- **C124 (violated).** `connect()` returns as if all was well although the gateway never answered. -/
theorem C124_violated : ¬ C124_statement := by
  intro h
  have hat : At (silent []) 0 (.done (.ok ())) := by unfold At; decide +kernel
  obtain ⟨b, q, hb, -⟩ := (h (silent []) 0 hat).2
  have : packets (silent []) = [] := by decide +kernel
  rw [this] at hb
  cases hb

/-! ### What holds -/

/-- Call `i` has its socket and has called `setGatewayMode(1)` as coroutine `j`. -/
def Asked (ops : List Op) (i j : Nat) : Prop := ∃ p a q, ops = p ++ .opened i (some a) :: q ∧ At p i .opening ∧ j = (run init p).gw.jobs.length

/-- Coroutine `j` has returned something. -/
def Returned (ops : List Op) (j : Nat) : Prop := ∃ r, (run init ops).gw.jobs[j]? = some (.done (.ok r))

/-- Then call `i` has listened and sent the destination with the send `k`. -/
def Told (ops : List Op) (i j k : Nat) : Prop :=
  ∃ p q, ops = p ++ .listened i true :: q ∧ Asked p i j ∧ Returned p j ∧ At p i .listening ∧ k = (run init p).gw.conn.sends.length

/-- Then call `i` has looked for the nodes with coroutine `n`. -/
def Listed (ops : List Op) (i j k n : Nat) : Prop :=
  ∃ p order q, ops = p ++ .resume i order :: q ∧ Told p i j k ∧ (∃ b, Ended k (.ok b) (run init p).gw.conn) ∧ n = (run init p).gw.jobs.length

/-- How call `i` got where it is. -/
def Hist (ops : List Op) (i : Nat) : Pc → Prop
  | .opening => True
  | .mode j => Asked ops i j
  | .listening => ∃ j, Asked ops i j ∧ Returned ops j
  | .telling k => ∃ j, Told ops i j k
  | .nodes n => ∃ j k, Listed ops i j k n
  | .done (.ok _) => ∃ j k n, Listed ops i j k n ∧ Returned ops n
  | .done (.error _) => True

theorem Asked.mono {p : List Op} {i j : Nat} (h : Asked p i j) (q : List Op) : Asked (p ++ q) i j := by
  obtain ⟨a, b, c, rfl, h⟩ := h; exact ⟨a, b, c ++ q, by simp, h⟩

theorem Told.mono {p : List Op} {i j k : Nat} (h : Told p i j k) (q : List Op) : Told (p ++ q) i j k := by
  obtain ⟨a, b, rfl, h⟩ := h; exact ⟨a, b ++ q, by simp, h⟩

theorem Listed.mono {p : List Op} {i j k n : Nat} (h : Listed p i j k n) (q : List Op) : Listed (p ++ q) i j k n := by
  obtain ⟨a, b, c, rfl, h⟩ := h; exact ⟨a, b, c ++ q, by simp, h⟩

theorem Returned.mono {p : List Op} {j : Nat} (h : Returned p j) (q : List Op) : Returned (p ++ q) j := by
  obtain ⟨r, hr⟩ := h
  refine ⟨r, ?_⟩
  rw [run_append]
  obtain ⟨l, e, -⟩ := gw_after (run init p) q
  rw [e]
  exact GatewayTime.done_run l hr

theorem Hist.mono {p : List Op} {i : Nat} {pc : Pc} (h : Hist p i pc) (q : List Op) : Hist (p ++ q) i pc := by
  cases pc with
  | opening => trivial
  | mode j => exact Asked.mono h q
  | listening => obtain ⟨j, h1, h2⟩ := h; exact ⟨j, h1.mono q, h2.mono q⟩
  | telling k => obtain ⟨j, h⟩ := h; exact ⟨j, h.mono q⟩
  | nodes n => obtain ⟨j, k, h⟩ := h; exact ⟨j, k, h.mono q⟩
  | done r =>
    cases r with
    | error e => trivial
    | ok u => obtain ⟨j, k, n, h1, h2⟩ := h; exact ⟨j, k, n, h1.mono q, h2.mono q⟩

theorem jobResult_some {g : Gateway.State} {j : Nat} {r : Py Gateway.Ret} (h : jobResult g j = some r) : g.jobs[j]? = some (.done r) := by
  unfold jobResult at h
  split at h
  · rename_i r' hr; cases h; exact hr
  · cases h

theorem set_cases {l : List Pc} {m i : Nat} {x y : Pc} (h : (l.set m x)[i]? = some y) : (m = i ∧ x = y) ∨ (m ≠ i ∧ l[i]? = some y) := by
  by_cases e : m = i
  · subst e
    rw [List.getElem?_set] at h
    simp only [if_true] at h
    split at h
    · exact .inl ⟨rfl, Option.some.inj h⟩
    · cases h
  · rw [List.getElem?_set_ne e] at h; exact .inr ⟨e, h⟩

section
attribute [local irreducible] Gateway.step Model.Connect.connected setDestination

theorem hist_snoc (ops : List Op) (o : Op) (ih : ∀ i pc, At ops i pc → Hist ops i pc) : ∀ i pc, At (ops ++ [o]) i pc → Hist (ops ++ [o]) i pc := by
  intro i pc h
  have old : (run init ops).calls[i]? = some pc → Hist (ops ++ [o]) i pc := fun h => (ih i pc h).mono [o]
  unfold At at h
  rw [run_snoc] at h
  cases o with
  | connect =>
    simp only [step] at h
    by_cases hi : i < (run init ops).calls.length
    · rw [List.getElem?_append_left hi] at h; exact old h
    · rw [List.getElem?_append_right (Nat.le_of_not_lt hi)] at h
      rw [List.getElem?_singleton] at h
      split at h
      · cases h; trivial
      · cases h
  | gw o => exact old h
  | opened m a =>
    simp only [step, opened] at h
    split at h
    · rename_i hm
      split at h
      · rename_i a
        simp only [State.goto] at h
        rcases set_cases h with ⟨rfl, rfl⟩ | ⟨-, h⟩
        · exact ⟨ops, a, [], rfl, hm, rfl⟩
        · exact old h
      · simp only [State.goto] at h
        rcases set_cases h with ⟨rfl, rfl⟩ | ⟨-, h⟩
        · trivial
        · exact old h
    · exact old h
  | listened m ok =>
    simp only [step, listened] at h
    split at h
    · rename_i hm
      split at h
      · rename_i hok
        split at h
        · simp only [State.goto] at h
          rcases set_cases h with ⟨rfl, rfl⟩ | ⟨-, h⟩
          · trivial
          · exact old h
        · simp only [State.goto] at h
          rcases set_cases h with ⟨rfl, rfl⟩ | ⟨-, h⟩
          · obtain ⟨j, h1, h2⟩ := ih _ _ hm
            cases hok
            exact ⟨j, ops, [], rfl, h1, h2, hm, rfl⟩
          · exact old h
      · simp only [State.goto] at h
        rcases set_cases h with ⟨rfl, rfl⟩ | ⟨-, h⟩
        · trivial
        · exact old h
    · exact old h
  | resume m order =>
    simp only [step, proceed] at h
    split at h
    · rename_i j hm
      split at h
      · exact old h
      · rename_i r hr
        simp only [State.goto] at h
        rcases set_cases h with ⟨rfl, rfl⟩ | ⟨-, h⟩
        · have h1 : Asked ops m j := ih _ _ hm
          have h2 : Returned ops j := ⟨r, jobResult_some hr⟩
          exact ⟨j, h1.mono _, h2.mono _⟩
        · exact old h
      · simp only [State.goto] at h
        rcases set_cases h with ⟨rfl, rfl⟩ | ⟨-, h⟩
        · trivial
        · exact old h
    · rename_i k hm
      split at h
      · exact old h
      · rename_i b hr
        simp only [State.goto] at h
        rcases set_cases h with ⟨rfl, rfl⟩ | ⟨-, h⟩
        · obtain ⟨j, h1⟩ := ih _ _ hm
          exact ⟨j, k, ops, order, [], rfl, h1, ⟨b, Gateway.sendResult_ended.mp hr⟩, rfl⟩
        · exact old h
      · simp only [State.goto] at h
        rcases set_cases h with ⟨rfl, rfl⟩ | ⟨-, h⟩
        · trivial
        · exact old h
    · rename_i n hm
      split at h
      · exact old h
      · rename_i r hr
        simp only [State.goto] at h
        rcases set_cases h with ⟨rfl, rfl⟩ | ⟨-, h⟩
        · obtain ⟨j, k, h1⟩ := ih _ _ hm
          have h2 : Returned ops n := ⟨r, jobResult_some hr⟩
          exact ⟨j, k, n, h1.mono _, h2.mono _⟩
        · exact old h
      · simp only [State.goto] at h
        rcases set_cases h with ⟨rfl, rfl⟩ | ⟨-, h⟩
        · trivial
        · exact old h
    · exact old h

end

theorem hist (ops : List Op) : ∀ i pc, At ops i pc → Hist ops i pc := by
  refine Conn.snoc_ind (P := fun ops => ∀ i pc, At ops i pc → Hist ops i pc) ?_ hist_snoc ops
  intro i pc h
  simp [At, run, init] at h

/-- **C124 (partial).** `connect()` returns only after a socket was opened, then `setGatewayMode(1)` has returned, then the listening socket was opened, then the send of the
destination has ended, and then the nodes were looked for to the end. -/
theorem C124_order_partial (ops : List Op) (i : Nat) (h : At ops i (.done (.ok ()))) : ∃ j k n, Listed ops i j k n ∧ Returned ops n := hist ops i _ h

theorem opened_gw {p : List Op} {i : Nat} (a : Bytes) (h : At p i .opening) :
    (step (run init p) (.opened i (some a))).gw = Gateway.step (Gateway.step (run init p).gw (.conn .connect)) (.setMode 1) := by
  unfold At at h
  simp only [step, opened, h, State.goto, connected]
  simp only [Gateway.run, List.foldl_cons, List.foldl_nil]

theorem asked_connected {ops : List Op} {i j : Nat} (h : Asked ops i j) : (run init ops).gw.conn.connected = true := by
  obtain ⟨p, a, q, rfl, h, -⟩ := h
  have e : run init (p ++ .opened i (some a) :: q) = run (step (run init p) (.opened i (some a))) q := by rw [run_append]; rfl
  obtain ⟨l, hl, -⟩ := gw_after (step (run init p) (.opened i (some a))) q
  rw [e, hl]
  refine (Gateway.grows_run l _).connected ?_
  rw [opened_gw a h]
  refine (Gateway.grows_step _ _).connected ?_
  simp [Gateway.step, Gateway.external, Conn.step, Conn.resetKeepAlive]

theorem setDestination_ok : ∃ m, setDestination = .ok m ∧ compose m = .ok register := by
  refine ⟨.known 0x5F08 [("unsolicitedIPv6Destination", .ipv6 destination), ("port", .num (.uint 2) 4123)], ?_, ?_⟩ <;> decide +kernel

theorem listened_out {p : List Op} {i : Nat} (h : At p i .listening) (hcon : (run init p).gw.conn.connected = true) :
    (step (run init p) (.listened i true)).gw.conn.out = (run init p).gw.conn.out ++ [(gatewayHeader ((((run init p).gw.conn.sends.length) + 1) % 256)).bytes ++ register] ∧
    (step (run init p) (.listened i true)).ports = (run init p).ports ++ [4123] := by
  obtain ⟨m, hm, hb⟩ := setDestination_ok
  unfold At at h
  have hinv : Conn.Inv (run init p).gw.conn := by
    obtain ⟨l, e, -⟩ := gw_run p
    rw [e]; exact Gateway.conn_inv l
  have hseq : ((run init p).gw.conn.seq + 1) % 256 = ((run init p).gw.conn.sends.length + 1) % 256 := by rw [hinv.last]; omega
  have := (send_ok (run init p).gw.conn m _ hb hcon).1
  rw [hseq] at this
  generalize run init p = s at *
  simp only [step, listened, h, hm, State.goto, Gateway.step, Gateway.external, if_true, Conn.step, and_true]
  exact this

/-- The destination has been transmitted by the send `k`. -/
theorem told_out {ops : List Op} {i j k : Nat} (h : Told ops i j k) : (gatewayHeader ((k + 1) % 256)).bytes ++ register ∈ (run init ops).gw.conn.out := by
  obtain ⟨p, q, rfl, h1, -, h2, rfl⟩ := h
  have e : run init (p ++ .listened i true :: q) = run (step (run init p) (.listened i true)) q := by rw [run_append]; rfl
  obtain ⟨l, hl, -⟩ := gw_after (step (run init p) (.listened i true)) q
  rw [e, hl]
  refine (Gateway.grows_run l _).mem ?_
  rw [(listened_out h2 (asked_connected h1)).1]
  simp

theorem ended_later {p : List Op} {k : Nat} {r : Py Bool} (h : Ended k r (run init p).gw.conn) (q : List Op) : Ended k r (run init (p ++ q)).gw.conn := by
  rw [run_append]
  obtain ⟨l, hl, -⟩ := gw_after (run init p) q
  rw [hl]
  clear hl
  revert h
  generalize (run init p).gw = g
  intro h
  induction l generalizing g with
  | nil => exact h
  | cons o l ih => exact ih (Gateway.step g o) ((Gateway.step_c g o).ended h)

/-- **C124 (partial).** When `connect()` has returned, the destination of unsolicited messages has been transmitted, and the gateway has acknowledged it unless `send` returned False. -/
theorem C124_registered_partial (ops : List Op) (i : Nat) (h : At ops i (.done (.ok ()))) :
    ∃ k, (gatewayHeader ((k + 1) % 256)).bytes ++ register ∈ (run init ops).gw.conn.out ∧ (Ended k (.ok false) (run init ops).gw.conn ∨ Registered ops) := by
  obtain ⟨j, k, n, ⟨p, order, q, rfl, ht, ⟨b, hb⟩, -⟩, -⟩ := hist ops i _ h
  have ho := told_out (ht.mono (.resume i order :: q))
  have he := ended_later hb (.resume i order :: q)
  refine ⟨k, ho, ?_⟩
  cases b with
  | false => exact .inl he
  | true =>
    obtain ⟨u, hu, hp⟩ := he
    obtain ⟨b, hb, ha⟩ := acked _ k u hu hp
    exact .inr ⟨b, _, hb, ha, ho⟩

theorem own_mem {b : Bytes} {l : List Gateway.Op} (h : Gateway.Op.conn (.packet b) ∈ l) : b ∈ Gateway.ownPackets l := by
  simp only [Gateway.ownPackets, List.mem_filterMap]
  exact ⟨_, h, rfl⟩

/-- **C124 (partial).** When `connect()` has returned, the gateway is in mode 1 or has acknowledged the command to go there, unless it has not reported its mode for three
seconds, or the `send` of the command to go there returned False. -/
theorem C124_mode_partial (ops : List Op) (i : Nat) (h : At ops i (.done (.ok ()))) :
    ModeOne ops ∨
    (∃ p a q, ops = p ++ .opened i (some a) :: q ∧ At p i .opening ∧ (run init p).gw.conn.now + 3 ≤ (run init ops).gw.conn.now ∧
      (run init ops).gw.jobs[(run init p).gw.jobs.length]? = some (.done (.ok (.bool false)))) ∨
    ∃ k b m, b ∈ packets ops ∧ Delivers b m ∧ m.hid = 0x5F03 ∧ m.num? "mode" ≠ some 1 ∧
      (gatewayHeader ((k + 1) % 256)).bytes ++ [0x5F, 0x01, 1] ∈ (run init ops).gw.conn.out ∧ Ended k (.ok false) (run init ops).gw.conn := by
  obtain ⟨j, k, n, ⟨p, order, q, rfl, ⟨p', q', rfl, ha, hr, -, -⟩, -, -⟩, -⟩ := hist ops i _ h
  have hr := (hr.mono (.listened i true :: q')).mono (.resume i order :: q)
  have ha := (ha.mono (.listened i true :: q')).mono (.resume i order :: q)
  generalize (p' ++ Op.listened i true :: q') ++ Op.resume i order :: q = ops at *
  obtain ⟨p, a, q, rfl, ho, rfl⟩ := ha
  obtain ⟨r, hr⟩ := hr
  have e : run init (p ++ .opened i (some a) :: q) = run (step (run init p) (.opened i (some a))) q := by rw [run_append]; rfl
  obtain ⟨l0, e0, p0⟩ := gw_run p
  obtain ⟨l, hl, pl⟩ := gw_after (step (run init p) (.opened i (some a))) q
  have hsub : ∀ b ∈ packets q, b ∈ packets (p ++ .opened i (some a) :: q) := by
    intro b hb
    simp only [packets, List.filterMap_append, List.mem_append] at hb ⊢
    exact .inr hb
  have hc0 : Gateway.step (Gateway.run Gateway.init l0) (.conn .connect) = Gateway.run Gateway.init (l0 ++ [.conn .connect]) := by simp [Gateway.run]
  have hcon : (Gateway.run Gateway.init (l0 ++ [.conn .connect])).conn.connected = true := by
    rw [← hc0]; simp [Gateway.step, Gateway.external, Conn.step, Conn.resetKeepAlive]
  have hlen : (Gateway.run Gateway.init (l0 ++ [.conn .connect])).jobs.length = (run init p).gw.jobs.length := by
    rw [← hc0, e0]; simp [Gateway.step, Gateway.external]
  have hnow : (Gateway.run Gateway.init (l0 ++ [.conn .connect])).conn.now = (run init p).gw.conn.now := by
    rw [← hc0, e0]; simp [Gateway.step, Gateway.external, Conn.step, Conn.resetKeepAlive, Conn.State.now]
  have hm := Gateway.modeCall_run (l0 ++ [.conn .connect]) l 1 (by omega) hcon
  have hs : Gateway.run (Gateway.step (Gateway.run Gateway.init (l0 ++ [.conn .connect])) (.setMode 1)) l = (run init (p ++ .opened i (some a) :: q)).gw := by
    rw [e, hl, opened_gw a ho, e0, hc0]
  have hs' : Gateway.run (Gateway.step (Gateway.run Gateway.init (l0 ++ [.conn .connect])) (.setMode ((1 : Nat) : Int))) l = (run init (p ++ .opened i (some a) :: q)).gw := hs
  rw [hs', hlen] at hm
  obtain ⟨x, hx, hm⟩ := hm
  rw [hr] at hx
  cases hx
  rcases hm with ⟨_, _, h, -⟩ | ⟨_, h⟩ | ⟨h1, h⟩ | ⟨m, ⟨b, hb, hd⟩, h2, h3, h⟩ | ⟨m, k, ⟨b, hb, hd⟩, h2, h3, h4, h | ⟨h, b', he⟩⟩
  · cases h
  · cases h
  · rw [h] at hr
    exact .inr (.inl ⟨p, a, q, rfl, ho, by rw [← hnow]; exact h1, hr⟩)
  · refine .inl (.inl ⟨b, m, hsub b ?_, hd, h2, h3⟩)
    rw [← pl]; exact own_mem hb
  · cases h
  · cases b' with
    | false => exact .inr (.inr ⟨k, b, m, hsub b (by rw [← pl]; exact own_mem hb), hd, h2, h3, h4, he⟩)
    | true =>
      obtain ⟨u, hu, hp⟩ := he
      obtain ⟨b, hb, ha⟩ := acked _ k u hu hp
      exact .inl (.inr ⟨b, _, hb, ha, h4⟩)

/-- **C124.** Whatever `setGatewayMode(1)` and the send of the destination return, `connect()` goes on: their results are not looked at. -/
theorem C124_ignored (s : State) (i : Nat) (order : List Nat) :
    (∀ j r, s.calls[i]? = some (.mode j) → s.gw.jobs[j]? = some (.done (.ok r)) → (step s (.resume i order)).calls[i]? = some .listening) ∧
    (∀ k b, s.calls[i]? = some (.telling k) → Ended k (.ok b) s.gw.conn → (step s (.resume i order)).calls[i]? = some (.nodes s.gw.jobs.length)) := by
  constructor
  · intro j r h hj
    have hlen := (List.getElem?_eq_some_iff.mp h).1
    have hr : jobResult s.gw j = some (.ok r) := by simp [jobResult, hj]
    simp only [step, proceed, h, hr, State.goto]
    exact List.getElem?_set_self hlen
  · intro k b h hk
    have hlen := (List.getElem?_eq_some_iff.mp h).1
    simp only [step, proceed, h, Gateway.sendResult_ended.mpr hk, State.goto]
    exact List.getElem?_set_self hlen

/-- The silent gateway: what was transmitted before `connect()` returned. -/
example : At (silent []) 0 (.done (.ok ())) ∧ (run init (silent [])).gw.conn.out.map (fun b => b.drop 7) = [[0x5F, 0x02], register, [0x52, 0x01, 0x01]] := by
  unfold At; decide +kernel

/-- A gateway in mode 2 that answers everything: it is told to go to mode 1 and where to send unsolicited messages, and both are acknowledged. -/
def friendly : List Op :=
  [.connect, .opened 0 (some []), .gw (.conn (.packet [0x23, 2, 0x40, 0, 1, 0, 0])), .gw (.conn (.resume 0)), .gw (.job 0 []),
   .gw (.conn (.packet [0x23, 2, 0, 0x50, 9, 0, 0, 0x5F, 0x03, 2])), .gw (.conn (.waiter (.resume 0))), .gw (.job 0 []),
   .gw (.conn (.packet [0x23, 2, 0x40, 0, 2, 0, 0])), .gw (.conn (.resume 1)), .gw (.job 0 []), .resume 0 [], .listened 0 true,
   .gw (.conn (.packet [0x23, 2, 0x40, 0, 3, 0, 0])), .gw (.conn (.resume 2)), .resume 0 []] ++ noAck 3 ++ noReport 1 1 ++ [.resume 0 []]

example : At friendly 0 (.done (.ok ())) ∧ (run init friendly).gw.conn.out.map (fun b => b.drop 4) =
    [[1, 0, 0, 0x5F, 0x02], [2, 0, 0, 0x5F, 0x01, 1], [3, 0, 0] ++ register, [4, 0, 0, 0x52, 0x01, 0x01]] := by
  unfold At; decide +kernel

/-- A socket that cannot be opened. -/
example : At [.connect, .opened 0 none] 0 (.done (.error .runtime)) := by unfold At; decide +kernel

/-! ## C125 -/

/-- The full property: the gateway is told to send unsolicited messages to an address of this host, and to a port that is listened on. -/
def C125_statement : Prop :=
  ∀ (ops : List Op) (i q : Nat) (address : Bytes) (hi lo : UInt8), At ops i .listening → address.length = 16 →
    (run init (ops ++ [.listened i true])).gw.conn.out = (run init ops).gw.conn.out ++ [(gatewayHeader q).bytes ++ ([0x5F, 0x08] ++ address ++ [hi, lo])] →
    address ∈ (run init ops).locals ∧ hi.toNat * 256 + lo.toNat ∈ (run init (ops ++ [.listened i true])).ports

/-- The host has another address than the one in the code. -/
def elsewhere : List Op := [.connect, .opened 0 (some [0, 0, 0, 0, 0, 0, 0, 0, 0, 0, 0xFF, 0xFF, 10, 0, 0, 1])] ++ noAck 0 ++ noReport 0 0 ++ [.resume 0 []]

/-- **C125 (violated).** On a host with another address than 192.168.0.49 the gateway is told to send unsolicited messages to 192.168.0.49. -/
theorem C125_violated : ¬ C125_statement := by
  intro h
  have hat : At elsewhere 0 .listening := by unfold At; decide +kernel
  have := (h elsewhere 0 2 destination 0x10 0x1B hat (by decide) (by decide +kernel)).1
  revert this
  decide +kernel

/-- **C125 (partial).** The port is the one that is listened on; the address is always 192.168.0.49, mapped to IPv6. -/
theorem C125_port_partial (ops : List Op) (i : Nat) (h : At ops i .listening) :
    (∃ q, (run init (ops ++ [.listened i true])).gw.conn.out =
      (run init ops).gw.conn.out ++ [(gatewayHeader q).bytes ++ ([0x5F, 0x08] ++ [0, 0, 0, 0, 0, 0, 0, 0, 0, 0, 0xFF, 0xFF, 192, 168, 0, 49] ++ [0x10, 0x1B])]) ∧
    0x10 * 256 + 0x1B ∈ (run init (ops ++ [.listened i true])).ports := by
  obtain ⟨j, ha, -⟩ := hist ops i _ h
  obtain ⟨h1, h2⟩ := listened_out h (asked_connected ha)
  rw [run_snoc, h1, h2]
  exact ⟨⟨_, rfl⟩, by simp⟩

/-- If the listening socket cannot be opened then nothing is registered. -/
theorem C125_not_listening (ops : List Op) (i : Nat) (h : At ops i .listening) :
    (run init (ops ++ [.listened i false])).gw = (run init ops).gw ∧ At (ops ++ [.listened i false]) i (.done (.error .runtime)) := by
  unfold At at h ⊢
  have hlen := (List.getElem?_eq_some_iff.mp h).1
  rw [run_snoc]
  simp only [step, listened, h, State.goto]
  exact ⟨rfl, List.getElem?_set_self hlen⟩

example : At elsewhere 0 .listening := by unfold At; decide +kernel

end Props.Connect

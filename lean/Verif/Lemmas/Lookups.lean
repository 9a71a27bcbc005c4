import Verif.Spec.Follow
import Verif.Lemmas.Turn
/-! Helper lemmas: the lookups for a node list report, if the addresses are advertised. -/
namespace Model.Gateway
open Spec Spec.Peer Props.Gateway

/-- The connection while a node is looked up. -/
def sought (C : Conn.State) (n : Nat) (ss : List (Nat × Nat)) (f : Waiter.Fut) (pc : Waiter.Pc) : Conn.State :=
  { C with out := C.out ++ [[0x58, 0x04, 0, UInt8.ofNat n]],
           w := { C.w with sessions := ss, futs := C.w.futs ++ [f], tasks := C.w.tasks ++ [⟨.plain, 0x5801, 3, some C.w.futs.length, C.w.now + 3, pc⟩] } }

/-- The nodes that are not in the table. -/
def notIn (g : State) (l : List Nat) : List Nat := l.filter fun n => !g.nodes.mem n

theorem ipOfNode_open {g : State} (h : StillOpen g) {n : Nat} (hn : n < 256) :
    ipOfNode g n = ({ g with conn := sought g.conn n [(0x5801, g.conn.w.futs.length)] .pending .waiting }, .ok g.conn.w.tasks.length) := by
  unfold ipOfNode
  rw [solicitation_bytes n hn]
  simp only [lookup, Conn.transmit, h.connected, if_true, Waiter.step, Waiter.addWaitingSession, h.sessions, Dict.get?, Dict.set, sought]

theorem reportLoop_next (todo : List Nat) : ∀ g : State, StillOpen g → (∀ n ∈ todo, n < 256) → todo.Nodup →
    (notIn g todo = [] → reportLoop g todo = ({ g with listUpdated := g.listUpdated + 1 }, .done (.ok .unit))) ∧
    ∀ n rest, notIn g todo = n :: rest → ∃ todo', n < 256 ∧ (n :: todo').Nodup ∧ (∀ m ∈ todo', m < 256) ∧ notIn g todo' = rest ∧ g.nodes.mem n = false ∧
      reportLoop g todo = ({ g with conn := sought g.conn n [(0x5801, g.conn.w.futs.length)] .pending .waiting }, .report n todo' g.conn.w.tasks.length) := by
  induction todo with
  | nil => intro g _ _ _; exact ⟨fun _ => rfl, fun n rest h => absurd h (by simp [notIn])⟩
  | cons m todo ih =>
    intro g h hlt hnd
    obtain ⟨i1, i2⟩ := ih g h (fun x hx => hlt x (.tail _ hx)) (List.nodup_cons.1 hnd).2
    by_cases hm : g.nodes.mem m = true
    · have e : notIn g (m :: todo) = notIn g todo := by simp [notIn, hm]
      rw [e]
      simp only [reportLoop, hm, if_true]
      exact ⟨i1, i2⟩
    · have hm' : g.nodes.mem m = false := by simpa using hm
      have e : notIn g (m :: todo) = m :: notIn g todo := by simp [notIn, hm']
      rw [e]
      refine ⟨fun h => absurd h (by simp), fun n rest hr => ?_⟩
      obtain ⟨rfl, rfl⟩ := List.cons.inj hr
      refine ⟨todo, hlt _ (.head _), hnd, fun x hx => hlt x (.tail _ hx), rfl, hm', ?_⟩
      simp only [reportLoop, hm', Bool.false_eq_true, if_false, ipOfNode_open h (hlt _ (.head _))]

/-- A gateway with one more coroutine. -/
def plus (r : State × Job) (js : List Job) : State := { r.1 with jobs := js ++ [r.2] }

theorem sought_advertised (C : Conn.State) (n : Nat) {b : Bytes} {m : Msg} (hd : decode b = .ok m) (hh : m.hid = 0x5801) :
    Conn.step (sought C n [(0x5801, C.w.futs.length)] .pending .waiting) (.packet b) = sought C n [] (.result m) .waiting := by
  have e : (C.w.futs ++ [Waiter.Fut.pending])[C.w.futs.length]? = some .pending := by simp
  have e' : (C.w.futs ++ [Waiter.Fut.pending]).set C.w.futs.length (.result m) = C.w.futs ++ [.result m] := by simp
  simp [Conn.step, Conn.onPacket, hd, hh, Conn.commandReceived, Waiter.messageReceived, sought, Dict.get?, e, e', Dict.erase]

theorem sought_taken (C : Conn.State) (n : Nat) (m : Msg) :
    Conn.step (sought C n [] (.result m) .waiting) (.waiter (.resume C.w.tasks.length)) = sought C n [] (.result m) (.done (.ok m)) := by
  simp [Conn.step, Waiter.step, sought, Waiter.finish, Dict.erase]

/-- One lookup. -/
theorem lookedUp_one (a : Addresses) (g : State) (js : List Job) {n : Nat} (hn : n < 256) (todo : List Nat) (ha : g.conn.ackQueue = []) (hc : g.conn.connected = true) :
    ∃ g1, StillOpen g1 ∧ g1.nodes = g.nodes.set n (some (a.of (UInt8.ofNat n))) ∧ g1.nmSeq = g.nmSeq ∧ g1.nodeId = g.nodeId ∧ g1.listUpdated = g.listUpdated ∧
      g1.conn.out.length = g.conn.out.length + 1 ∧
      lookedUp a (plus ({ g with conn := sought g.conn n [(0x5801, g.conn.w.futs.length)] .pending .waiting }, .report n todo g.conn.w.tasks.length) js, g.conn.out.length) =
        (plus (reportLoop g1 todo) js, g.conn.out.length + 1) := by
  obtain ⟨v, e1, e2, e3⟩ := advertisement_decode 0 (UInt8.ofNat n) (a.of (UInt8.ofNat n)) a.home (a.sixteen _) a.four
  have hadv : advertised (.known 0x5801 v) = some (a.of (UInt8.ofNat n)) := by simp only [advertised, Msg.attr, Msg.attrs, e3]
  refine ⟨{ g with conn := sought g.conn n [] (.result (.known 0x5801 v)) (.done (.ok (.known 0x5801 v))), jobs := js ++ [.report n todo g.conn.w.tasks.length],
                   nodes := g.nodes.set n (some (a.of (UInt8.ofNat n))) }, ⟨hc, ha, rfl⟩, rfl, rfl, rfl, rfl, by simp [sought], ?_⟩
  have e : (plus ({ g with conn := sought g.conn n [(0x5801, g.conn.w.futs.length)] .pending .waiting }, Job.report n todo g.conn.w.tasks.length) js).conn.out[g.conn.out.length]? =
      some [0x58, 0x04, 0, UInt8.ofNat n] := by
    simp [plus, sought]
  unfold lookedUp
  dsimp only
  rw [e]
  refine congrArg (fun x => (x, g.conn.out.length + 1)) ?_
  have hT : (plus ({ g with conn := sought g.conn n [(0x5801, g.conn.w.futs.length)] .pending .waiting }, Job.report n todo g.conn.w.tasks.length) js).conn.w.tasks.length - 1 = g.conn.w.tasks.length := by
    simp [plus, sought]
  have hJ : (plus ({ g with conn := sought g.conn n [(0x5801, g.conn.w.futs.length)] .pending .waiting }, Job.report n todo g.conn.w.tasks.length) js).jobs.length - 1 = js.length := by
    simp [plus]
  rw [hT, hJ]
  simp only [run, List.foldl_cons, List.foldl_nil, plus]
  rw [gw_conn_step _ _ _ (.packet _) rfl, sought_advertised _ _ (b := a.advertisement (UInt8.ofNat n)) (m := .known 0x5801 v) e1 rfl, gw_conn_step _ _ _ (.waiter (.resume g.conn.w.tasks.length)) rfl, sought_taken]
  have ht : taskDone { g with conn := sought g.conn n [] (.result (.known 0x5801 v)) (.done (.ok (.known 0x5801 v))), jobs := js ++ [.report n todo g.conn.w.tasks.length] } g.conn.w.tasks.length =
      some (.ok (.known 0x5801 v)) := by
    simp [taskDone, sought]
  simp only [step, stepJob]
  rw [List.getElem?_append_right (Nat.le_refl _), Nat.sub_self, List.getElem?_cons_zero]
  dsimp only
  rw [ht]
  dsimp only
  rw [hadv]
  obtain ⟨c, k, j, hfr⟩ := reportLoop_frame todo { g with conn := sought g.conn n [] (.result (.known 0x5801 v)) (.done (.ok (.known 0x5801 v))), jobs := js ++ [.report n todo g.conn.w.tasks.length], nodes := g.nodes.set n (some (a.of (UInt8.ofNat n))) }
  rw [hfr]
  simp [State.setJob]

theorem notIn_set {g g1 : State} {n : Nat} {v : Option Bytes} (h : g1.nodes = g.nodes.set n v) {l : List Nat} (hn : n ∉ l) : notIn g1 l = notIn g l := by
  unfold notIn
  refine List.filter_congr fun m hm => ?_
  have : m ≠ n := fun e => hn (e ▸ hm)
  rw [h, Dict.mem, Dict.mem, Dict.get?_set, if_neg (fun e => this e.symm)]

/-- All lookups. -/
theorem lookedUp_all (a : Addresses) (js : List Job) : ∀ (k : Nat) (todo : List Nat) (g : State), StillOpen g → (∀ n ∈ todo, n < 256) → todo.Nodup → (notIn g todo).length = k →
    ∃ g1, StillOpen g1 ∧ g1.nodes = g.nodes ++ (notIn g todo).map (fun n => (n, some (a.of (UInt8.ofNat n)))) ∧ g1.nmSeq = g.nmSeq ∧ g1.nodeId = g.nodeId ∧
      g1.listUpdated = g.listUpdated + 1 ∧ g1.conn.out.length = g.conn.out.length + k ∧ g1.jobs = js ++ [.done (.ok .unit)] ∧
      times (lookedUp a) k (plus (reportLoop g todo) js, g.conn.out.length) = (g1, g1.conn.out.length) := by
  intro k
  induction k with
  | zero =>
    intro todo g h hlt hnd hk
    have hnil := List.length_eq_zero_iff.1 hk
    rw [(reportLoop_next todo g h hlt hnd).1 hnil, hnil]
    exact ⟨plus ({ g with listUpdated := g.listUpdated + 1 }, .done (.ok .unit)) js, ⟨h.connected, h.acks, h.sessions⟩, by simp [plus], rfl, rfl, rfl, rfl, rfl, rfl⟩
  | succ k ih =>
    intro todo g h hlt hnd hk
    obtain ⟨n, rest, hr⟩ : ∃ n rest, notIn g todo = n :: rest := by
      cases hx : notIn g todo with
      | nil => rw [hx] at hk; cases hk
      | cons n rest => exact ⟨n, rest, rfl⟩
    obtain ⟨todo', t1, t2, t3, t4, t5, t6⟩ := (reportLoop_next todo g h hlt hnd).2 n rest hr
    obtain ⟨g1, g2, g3, g4, g5, g6, g7, g8⟩ := lookedUp_one a g js t1 todo' h.acks h.connected
    have hni := notIn_set g3 (List.nodup_cons.1 t2).1
    have habs : n ∉ Dict.keys g.nodes := by
      intro hm
      have : g.nodes.mem n = true := by rw [Dict.mem, Dict.get?_isSome_iff]; exact hm
      rw [t5] at this
      cases this
    rw [hr] at hk ⊢
    rw [t6]
    obtain ⟨x, x1, x2, x3, x4, x5, x6, x7, x8⟩ := ih todo' g1 g2 t3 (List.nodup_cons.1 t2).2 (by rw [hni, t4]; simpa using hk)
    refine ⟨x, x1, ?_, by rw [x3, g4], by rw [x4, g5], by rw [x5, g6], by rw [x6, g7]; omega, x7, ?_⟩
    · rw [x2, g3, Lemmas.App.set_absent _ _ _ habs, hni, t4, List.append_assoc]
      rfl
    · rw [times, g8, ← g7]
      exact x8

end Model.Gateway

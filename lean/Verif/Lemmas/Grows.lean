import Verif.Lemmas.GatewayConn
import Verif.Lemmas.Asks
/-! Helper lemmas: what a connection has transmitted and the sends it was asked for stay. -/
namespace Model.Conn
open Spec (Bytes)

/-- The connection `d` comes after `c`. -/
structure Grows (c d : State) : Prop where
  out : ∃ l, d.out = c.out ++ l
  sends : c.sends.length ≤ d.sends.length
  connected : c.connected = true → d.connected = true

theorem Grows.refl (c : State) : Grows c c := ⟨⟨[], by simp⟩, Nat.le_refl _, id⟩

theorem Grows.trans {a b c : State} (h : Grows a b) (h' : Grows b c) : Grows a c := by
  obtain ⟨l, hl⟩ := h.out
  obtain ⟨m, hm⟩ := h'.out
  exact ⟨⟨l ++ m, by rw [hm, hl, List.append_assoc]⟩, Nat.le_trans h.sends h'.sends, h'.connected ∘ h.connected⟩

theorem Grows.same {c d : State} (h1 : d.out = c.out) (h2 : d.sends.length = c.sends.length) (h3 : d.connected = c.connected) : Grows c d :=
  ⟨⟨[], by simp [h1]⟩, by omega, by rw [h3]; exact id⟩

theorem Grows.mem {c d : State} (h : Grows c d) {b : Bytes} (hb : b ∈ c.out) : b ∈ d.out := by
  obtain ⟨l, hl⟩ := h.out
  rw [hl]; exact List.mem_append_left _ hb

theorem Grows.transmit (c : State) (b : Bytes) : Grows c (Conn.transmit c b) := by
  simp only [Conn.transmit]
  split
  · exact ⟨⟨[b], rfl⟩, Nat.le_refl _, id⟩
  · exact .refl _

theorem Grows.reset (c : State) : Grows c (resetKeepAlive c) := .same rfl rfl rfl

theorem Grows.keepAlive (c : State) (p : Py Bytes) : Grows c (Conn.keepAlive c p) := by
  cases p with
  | error e => exact .refl _
  | ok b => exact (Grows.transmit c b).trans (.reset _)

theorem Grows.transmitAndWait (c : State) (p : Py Bytes) (t : Nat) : Grows c (Conn.transmitAndWait c p t) := by
  cases p with
  | error e => exact ⟨⟨[], by simp [Conn.transmitAndWait]⟩, by simp [Conn.transmitAndWait], id⟩
  | ok b =>
    have h := (Grows.transmit c b).trans (.reset _)
    simp only [Conn.transmitAndWait]
    split
    · exact h.trans ⟨⟨[], by simp⟩, by simp, id⟩
    · exact h.trans ⟨⟨[], by simp⟩, by simp, id⟩

theorem Grows.send (c : State) (cmd : Msg) (src dst : Int) (t : Nat) : Grows c (Conn.send c cmd src dst t) := by
  simp only [Conn.send]
  generalize (packetFor ((c.seq + 1) % 256) src dst cmd).bind compose = p
  exact (Grows.same rfl rfl rfl : Grows c { c with seq := (c.seq + 1) % 256 }).trans (.transmitAndWait _ p t)

theorem Grows.ackReceived (c : State) (p : Msg) : Grows c (Conn.ackReceived c p).1 := by
  simp only [Conn.ackReceived]
  repeat' split
  all_goals first | exact .refl _ | exact .same rfl (by simp) rfl

theorem Grows.commandReceived (c : State) (m : Msg) : Grows c (Conn.commandReceived c m).1 := by
  simp only [Conn.commandReceived]
  split
  · exact .refl _
  · split <;> exact .same rfl rfl rfl

theorem Grows.onPacket (c : State) (b : Bytes) : Grows c (Conn.onPacket c b).1 := by
  simp only [Conn.onPacket]
  split
  · exact .refl _
  · rename_i p _
    have h1 := Grows.ackReceived c p
    have h2 := Grows.commandReceived c p
    generalize Conn.ackReceived c p = a at h1
    generalize Conn.commandReceived c p = d at h2
    obtain ⟨a1, a2⟩ := a
    obtain ⟨d1, d2⟩ := d
    cases a2 <;> cases d2 <;> simp only <;> repeat' split
    all_goals first | exact .refl _ | exact h1 | exact h2

theorem Grows.step (c : State) (o : Op) : Grows c (Conn.step c o) := by
  cases o with
  | connect => exact ⟨⟨[], by simp [Conn.step, resetKeepAlive]⟩, Nat.le_refl _, fun _ => rfl⟩
  | send cmd src dst t => simp only [Conn.step]; exact .send ..
  | packet b => exact .onPacket c b
  | tick => exact .same rfl rfl rfl
  | timer i =>
    simp only [Conn.step]
    repeat' split
    all_goals exact .same rfl (by simp) rfl
  | resume i =>
    simp only [Conn.step]
    repeat' split
    all_goals exact .same rfl (by simp) rfl
  | cancelled i =>
    simp only [Conn.step]
    repeat' split
    all_goals exact .same rfl (by simp) rfl
  | kill i =>
    simp only [Conn.step]
    repeat' split
    all_goals exact .same rfl (by simp) rfl
  | fire k =>
    simp only [Conn.step]
    split
    · exact .refl _
    · split
      · exact (Grows.same rfl rfl rfl : Grows c { c with timers := c.timers.erase k }).trans (.keepAlive _ _)
      · exact .refl _
  | waiter o => cases o <;> exact .same rfl rfl rfl

end Model.Conn

namespace Model.Gateway
open Spec (Bytes)

theorem CEvo.grows {R : Nat → PyErr → Prop} {c c' : Conn.State} (h : CEvo R c c') : Conn.Grows c c' := by
  induction h with
  | refl => exact .refl _
  | op o _ _ ih => exact ih.trans (.step _ o)
  | transmit b _ ih => exact ih.trans (.transmit _ b)
  | raised t e _ _ ih => exact ih.trans (.same rfl rfl rfl)

/-- Whatever happens to the gateway, what its connection has transmitted and was asked to send stays. -/
theorem grows_step (s : State) (op : Op) : Conn.Grows s.conn (step s op).conn := (step_c s op).grows

theorem grows_run (ops : List Op) : ∀ s : State, Conn.Grows s.conn (run s ops).conn := by
  induction ops with
  | nil => intro s; exact .refl _
  | cons o ops ih => intro s; exact (grows_step s o).trans (ih (step s o))

/-- The invariant of connections holds for the gateway's own. -/
theorem conn_inv (ops : List Op) : Conn.Inv (run init ops).conn := by
  obtain ⟨l, h, -⟩ := conn_run ops
  have hi := Conn.inv_run l
  generalize (run init ops).conn = c at h
  generalize Conn.run Conn.init l = d at h hi
  obtain ⟨a1, a2, a3, a4, a5, a6, a7, a8, a9, a10⟩ := c
  obtain ⟨e1, e2, e3, e4, e5, e6, e7, e8, e9, e10⟩ := d
  simp only [bare, Conn.State.mk.injEq] at h
  obtain ⟨rfl, rfl, rfl, rfl, rfl, rfl, rfl, rfl, -, rfl⟩ := h
  exact ⟨hi.own, hi.seqs, hi.last, hi.sends⟩

/-- A send of the gateway that returned True was acknowledged. -/
theorem conn_acked (ops : List Op) (k : Nat) (h : sendResult (run init ops) k = some (.ok true)) : ∃ l t, (Conn.run Conn.init l).sends[k]? = some t ∧ t.pc = .done (.ok true) ∧
    connPackets l = ownPackets ops := by
  obtain ⟨l, e, p⟩ := conn_run ops
  simp only [sendResult] at h
  split at h
  · rename_i t ht
    split at h
    · rename_i r hr
      refine ⟨l, t, ?_, ?_, p⟩
      · rw [← ht]; exact (congrArg (fun c : Conn.State => c.sends[k]?) e).symm
      · rw [hr]; exact congrArg Conn.Pc.done (Option.some.inj h)
    · cases h
  · cases h

end Model.Gateway

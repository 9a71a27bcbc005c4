import Verif.Lemmas.Startup
import Verif.Lemmas.Answered
import Verif.Lemmas.Asks
import Verif.Spec.InTime
/-! Helper lemmas: a question on the connection of the gateway, while other things happen. -/
namespace Model.Conn
open Spec Spec.Peer

attribute [local irreducible] send decode

theorem onPacket_wop (s : State) (b : Bytes) :
    (onPacket s b).1.w = s.w ∨ ∃ p m, decode b = .ok p ∧ (p.command = some m ∨ (m = p ∧ p.hid = 0x5801)) ∧ (onPacket s b).1.w = Waiter.step s.w (.message m) := by
  unfold onPacket
  cases hd : decode b with
  | error e => exact .inl rfl
  | ok p =>
    have hc := commandReceived_w s p
    have ha := ackReceived_w s p
    simp only
    split
    · rename_i hh
      rw [if_pos hh] at hc
      split
      · split <;> (rename_i e; rw [e] at ha; exact .inl ha)
      · split
        · split
          · split <;> (rename_i e; rw [e] at ha; exact .inl ha)
          · exact .inl rfl
        · split
          · exact .inl rfl
          · split
            · split <;> (rename_i e; rw [e] at hc; exact hc.imp_right fun ⟨m, h1, h2⟩ => ⟨p, m, rfl, .inl h1, h2⟩)
            · exact .inl rfl
    · rename_i hh
      rw [if_neg hh] at hc
      split
      · exact .inl rfl
      · split
        · rename_i h58
          split <;> (rename_i e; rw [e] at hc; exact hc.imp_right fun ⟨m, h1, h2⟩ => ⟨p, m, rfl, .inr ⟨(Option.some.inj h1).symm, h58⟩, h2⟩)
        · exact .inl rfl

/-- What an operation is for those who wait for messages. -/
theorem step_wop (s : State) (o : Op) : (step s o).w = s.w ∨ ∃ wo, (step s o).w = Waiter.step s.w wo ∧
    ((∃ b p m, o = .packet b ∧ decode b = .ok p ∧ (p.command = some m ∨ (m = p ∧ p.hid = 0x5801)) ∧ wo = .message m) ∨ wo = .tick ∨ (o = .waiter wo ∧ ∀ m, wo ≠ .message m)) := by
  cases o with
  | connect => exact .inl rfl
  | send cmd src dst t => exact .inl (send_frame s cmd src dst t).2
  | packet b =>
    rcases onPacket_wop s b with h | ⟨p, m, h1, h2, h3⟩
    · exact .inl h
    · exact .inr ⟨.message m, h3, .inl ⟨b, p, m, rfl, h1, h2, rfl⟩⟩
  | tick => exact .inr ⟨.tick, rfl, .inr (.inl rfl)⟩
  | timer i => left; simp only [step]; repeat' split
               all_goals rfl
  | resume i => left; simp only [step]; repeat' split
                all_goals rfl
  | cancelled i => left; simp only [step]; repeat' split
                   all_goals rfl
  | kill i => left; simp only [step]; repeat' split
              all_goals rfl
  | fire k =>
    left
    simp only [step]
    split
    · rfl
    · split
      · exact (keepAlive_sends _ _).2.2.2
      · rfl
  | waiter o =>
    cases o with
    | message m => exact .inl rfl
    | tick => exact .inl rfl
    | _ => exact .inr ⟨_, rfl, .inr (.inr ⟨rfl, by simp⟩)⟩

theorem onPacket_conn (s : State) (b : Bytes) : (onPacket s b).1.out = s.out ∧ (onPacket s b).1.connected = s.connected := by
  have hc : ∀ p, (commandReceived s p).1.out = s.out ∧ (commandReceived s p).1.connected = s.connected := by
    intro p
    unfold commandReceived
    repeat' split
    all_goals exact ⟨rfl, rfl⟩
  have ha : ∀ p, (ackReceived s p).1.out = s.out ∧ (ackReceived s p).1.connected = s.connected := by
    intro p
    unfold ackReceived
    repeat' split
    all_goals exact ⟨rfl, rfl⟩
  unfold onPacket
  repeat' split
  all_goals first
    | exact ⟨rfl, rfl⟩
    | (rename_i e; have := ha ‹Msg›; rw [e] at this; exact this)
    | (rename_i e; have := hc ‹Msg›; rw [e] at this; exact this)

theorem lastQuestion_snoc (out : List Bytes) (b : Bytes) : lastQuestion (out ++ [b]) = if isPacket b then some b else lastQuestion out := by
  simp only [lastQuestion, List.reverse_append, List.reverse_cons, List.reverse_nil, List.nil_append, List.singleton_append, List.find?_cons]
  split <;> simp_all

theorem transmit_last (s : State) {b : Bytes} (hb : isPacket b = false) : lastQuestion (transmit s b).out = lastQuestion s.out ∧ (transmit s b).connected = s.connected := by
  unfold transmit
  split
  · exact ⟨by rw [lastQuestion_snoc, hb]; rfl, rfl⟩
  · exact ⟨rfl, rfl⟩

/-- Only sends are questions. -/
theorem step_last (s : State) (o : Op) (ho : ∀ cmd src dst t, o ≠ .send cmd src dst t) :
    lastQuestion (step s o).out = lastQuestion s.out ∧ (s.connected = true → (step s o).connected = true) := by
  cases o with
  | connect => exact ⟨rfl, fun _ => rfl⟩
  | send cmd src dst t => exact absurd rfl (ho cmd src dst t)
  | packet b => obtain ⟨h1, h2⟩ := onPacket_conn s b; exact ⟨congrArg lastQuestion h1, fun h => h2.trans h⟩
  | tick => exact ⟨rfl, id⟩
  | timer i => simp only [step]; repeat' split
               all_goals exact ⟨rfl, id⟩
  | resume i => simp only [step]; repeat' split
                all_goals exact ⟨rfl, id⟩
  | cancelled i => simp only [step]; repeat' split
                   all_goals exact ⟨rfl, id⟩
  | kill i => simp only [step]; repeat' split
              all_goals exact ⟨rfl, id⟩
  | fire k =>
    simp only [step]
    split
    · exact ⟨rfl, id⟩
    · split
      · simp only [keepAlive, keepAlivePacket_ok, resetKeepAlive]
        obtain ⟨h1, h2⟩ := transmit_last { s with timers := s.timers.erase k } (b := [0x23, 0x03, 0x80]) rfl
        exact ⟨h1, fun h => h2.trans h⟩
      · exact ⟨rfl, id⟩
  | waiter o => cases o <;> exact ⟨rfl, id⟩

/-- All sends but `k` have ended, and all who wait for a report of the network but `t`. -/
structure Rest (c : State) (k t : Option Nat) : Prop where
  inv : Inv c
  winv : ∃ tag, Waiter.Inv tag c.w
  sends : ∀ (i : Nat) (u : Send), c.sends[i]? = some u → some i ≠ k → ∃ r, u.pc = .done r ∧ r ≠ .error .cancelled
  tasks : ∀ (i : Nat) (u : Waiter.Task), c.w.tasks[i]? = some u → proxy u.hid = true → some i ≠ t → ∃ r, u.pc = .done r

theorem Rest.step {c : State} {k t : Option Nat} (h : Rest c k t) {o : Op} (hs : ∀ cmd src dst to, o ≠ .send cmd src dst to)
    (hc : ∀ kd hid to, o = .waiter (.call kd hid to) → proxy hid = false) : Rest (step c o) k t := by
  have hw := step_wop c o
  obtain ⟨tag, hi⟩ := h.winv
  refine ⟨h.inv.step o, ?_, ?_, ?_⟩
  · rcases hw with e | ⟨wo, e, -⟩
    · rw [e]; exact ⟨tag, hi⟩
    · rw [e]; exact hi.step wo
  · intro i u hu hk
    rcases step_back c o i u hu with ⟨hn, -⟩ | ⟨u0, h0, -⟩
    · obtain ⟨-, cmd, src, dst, to, e, -⟩ := step_new c o i u hn hu
      exact absurd e (hs cmd src dst to)
    · obtain ⟨r, h1, h2⟩ := h.sends i u0 h0 hk
      obtain ⟨u', h3, h4⟩ := done_stays c o h0 h1
      rw [hu] at h3; cases h3
      exact ⟨r, h4, h2⟩
  · intro i u hu hp ht
    rcases hw with e | ⟨wo, e, hwo⟩
    · rw [e] at hu; exact h.tasks i u hu hp ht
    · rw [e] at hu
      rcases Waiter.step_task_back c.w wo i u hu with ⟨kd, h', to, e1, e2⟩ | ⟨u', a1, a2, a3⟩
      · rcases hwo with ⟨b, p, m, -, -, -, e3⟩ | e3 | ⟨e3, -⟩
        · rw [e1] at e3; cases e3
        · rw [e1] at e3; cases e3
        · rw [e1] at e3
          rw [e2, hc kd h' to e3] at hp; cases hp
      · obtain ⟨r, hr⟩ := h.tasks i u' a1 (by rw [a2]; exact hp) ht
        exact ⟨r, by rw [a3 ⟨r, hr⟩]; exact hr⟩

theorem Inv.congr {c d : State} (h : Inv c) (h1 : d.sends = c.sends) (h2 : d.ackQueue = c.ackQueue) (h3 : d.seq = c.seq) (h4 : c.now ≤ d.now) : Inv d where
  own := by rw [h1, h2]; exact h.own
  seqs := by rw [h1]; exact h.seqs
  last := by rw [h1, h3]; exact h.last
  sends := by
    rw [h1]
    intro k t ht
    obtain ⟨a1, a2, a3⟩ := h.sends k t ht
    exact ⟨a1, fun x => Nat.le_trans (a2 x) h4, a3⟩

/-- What does not matter is changed. -/
theorem Rest.congr {c d : State} {k t : Option Nat} (h : Rest c k t) (h1 : d.sends = c.sends) (h2 : d.ackQueue = c.ackQueue) (h3 : d.seq = c.seq) (h4 : d.w = c.w) : Rest d k t where
  inv := h.inv.congr h1 h2 h3 (by unfold State.now; rw [h4]; exact Nat.le_refl _)
  winv := by rw [h4]; exact h.winv
  sends := by rw [h1]; exact h.sends
  tasks := by rw [h4]; exact h.tasks

/-- Nobody waits for an acknowledgement. -/
theorem Rest.noAck {c : State} {t : Option Nat} (h : Rest c none t) (v : Int) : c.ackQueue.get? v = none := by
  cases hq : c.ackQueue.get? v with
  | none => rfl
  | some i =>
    obtain ⟨u, hu, -, -, ho⟩ := h.inv.own v i hq
    obtain ⟨r, h1, h2⟩ := h.sends i u hu (by simp)
    rcases ho with ho | ho
    · exact absurd h1 (ho r)
    · rw [h1] at ho; cases ho; exact absurd rfl h2

/-- Send `K` has been sent and is waiting for its acknowledgement or has got it; call `T` waits for a message with the number `hid` or has got `m`. -/
structure Posed (c : State) (K T hid : Nat) (m : Msg) : Prop where
  rest : Rest c (some K) (some T)
  mine : Mine c K
  send : ∃ u, c.sends[K]? = some u ∧ (u.pc = .waiting ∨ u.pc = .done (.ok true))
  task : ∃ t, c.w.tasks[T]? = some t ∧ t.kind = .adapter
  hope : Waiter.Alone c.w T hid ∨ Waiter.Resolved c.w T m

theorem Posed.congr {c d : State} {K T hid : Nat} {m : Msg} (h : Posed c K T hid m) (h1 : d.sends = c.sends) (h2 : d.ackQueue = c.ackQueue) (h3 : d.seq = c.seq) (h4 : d.w = c.w) :
    Posed d K T hid m where
  rest := h.rest.congr h1 h2 h3 h4
  mine := by unfold Mine; rw [h1, h2]; exact h.mine
  send := by rw [h1]; exact h.send
  task := by rw [h4]; exact h.task
  hope := by rw [h4]; exact h.hope

end Model.Conn

namespace Model.Waiter
open Spec.Peer

/-- A call that can be answered and whose time does not run out can still be answered. -/
theorem Alone.stay {tag : Nat → Nat} {s : State} (hi : Inv tag s) {i h : Nat} (ha : Alone s i h) (hk : ∃ t, s.tasks[i]? = some t ∧ t.kind = .adapter) {op : Op} (hop : op.foreign h)
    (h1 : op ≠ .kill i) (h2 : ∀ e, op ≠ .sendRaise i e) (h3 : op = .timer i → ∀ t, s.tasks[i]? = some t → t.pc = .waiting → s.now < t.deadline) : Alone (Waiter.step s op) i h := by
  rcases ha.step hi hop h1 h2 with h' | ⟨t', a1, -, a3, a4⟩
  · exact h'
  · exfalso
    obtain ⟨f, t, hs, hf, ht, hh, hpc, -⟩ := ha
    obtain ⟨t0, b1, b2⟩ := hk
    rw [ht] at b1; cases b1
    by_cases ho : op.target = some i
    · cases op with
      | sendDone j ok =>
        cases ho
        rcases hpc with ⟨p1, p2, p3⟩ | ⟨p1, p2⟩
        · have e : t.fut = some f := by
            rcases p3 with p3 | p3
            · rw [b2] at p3; cases p3
            · exact p3.1
          simp only [Waiter.step, ht, p1, ne_eq, not_true, if_false, b2, e] at a1
          rw [getElem?_set_some ht] at a1
          cases a1
          exact a4 rfl
        · simp only [Waiter.step, ht, p1] at a1
          rw [if_pos (by simp), ht] at a1
          cases a1
          exact a4 p1
      | sendRaise j e => cases ho; exact h2 e rfl
      | timer j =>
        cases ho
        have : Waiter.step s (.timer i) = s := by
          simp only [Waiter.step, ht]
          rw [if_neg]
          rintro ⟨x, y⟩
          exact absurd (h3 rfl t ht x) (by omega)
        rw [this, ht] at a1
        cases a1
        rcases hpc with ⟨p1, -⟩ | ⟨p1, -⟩
        · exact a3 p1
        · exact a4 p1
      | resume j =>
        cases ho
        rcases hpc with ⟨p1, -⟩ | ⟨p1, p2⟩
        · have : Waiter.step s (.resume i) = s := by simp only [Waiter.step, ht, p1]; rfl
          rw [this, ht] at a1; cases a1; exact a3 p1
        · have : Waiter.step s (.resume i) = s := by simp only [Waiter.step, ht, p1, p2, hf]; rfl
          rw [this, ht] at a1; cases a1; exact a4 p1
      | cancelDone j =>
        cases ho
        rcases hpc with ⟨p1, -⟩ | ⟨p1, p2⟩
        · have : Waiter.step s (.cancelDone i) = s := by simp only [Waiter.step, ht, p1]; rfl
          rw [this, ht] at a1; cases a1; exact a3 p1
        · have : Waiter.step s (.cancelDone i) = s := by simp only [Waiter.step, ht, p1]; rfl
          rw [this, ht] at a1; cases a1; exact a4 p1
      | kill j => cases ho; exact h1 rfl
      | _ => cases ho
    · have := step_task_other s op i t ht ho
      rw [this] at a1
      cases a1
      rcases hpc with ⟨p1, -⟩ | ⟨p1, -⟩
      · exact a3 p1
      · exact a4 p1

theorem Alone.open {s : State} {i h : Nat} (ha : Alone s i h) {t : Task} (ht : s.tasks[i]? = some t) (r : Res) : t.pc ≠ .done r := by
  obtain ⟨f, t', -, -, a1, -, hpc, -⟩ := ha
  rw [ht] at a1; cases a1
  rcases hpc with ⟨p, -⟩ | ⟨p, -⟩ <;> (rw [p]; simp)

theorem Resolved.ended {s : State} {i : Nat} {m : Msg} (ha : Resolved s i m) {t : Task} (ht : s.tasks[i]? = some t) {r : Res} (hr : t.pc = .done r) : r = .ok m := by
  obtain ⟨t', f, a1, -, -, hpc⟩ := ha
  rw [ht] at a1; cases a1
  rw [hr] at hpc
  rcases hpc with ⟨p, -⟩ | p | p | p <;> cases p
  rfl

/-- A call whose answer has arrived keeps it, unless it is cancelled before it has ended. -/
theorem Resolved.stay {s : State} {i : Nat} {m : Msg} (h : Resolved s i m) {op : Op} (h1 : op = .kill i → ∀ t, s.tasks[i]? = some t → ∃ r, t.pc = .done r)
    (h2 : ∀ e, op ≠ .sendRaise i e) : Resolved (Waiter.step s op) i m := by
  by_cases hk : op = .kill i
  · subst hk
    obtain ⟨t, f, ht, hf⟩ := id h
    obtain ⟨r, hr⟩ := h1 rfl t ht
    have : Waiter.step s (.kill i) = s := by simp only [Waiter.step, ht, hr]
    rw [this]; exact h
  · exact h.step hk h2

end Model.Waiter

namespace Model.Conn
open Spec Spec.Peer

/-- A question stays a question, whatever else happens. -/
theorem Posed.step {w : Network} {c : State} {K T hid : Nat} {m : Msg} {d : Bytes} (h : Posed c K T hid m) (hp : proxy hid = true) (hm : m.hid = hid)
    (hl : lastQuestion c.out = some d) (hd : ∀ p m', decode (w.reply d).2 = .ok p → p.command = some m' → m' = m) {o : Op} (hf : FineConn w c o)
    (hr : ∀ e, o ≠ .waiter (.sendRaise T e)) : Posed (Conn.step c o) K T hid m := by
  have hs : ∀ cmd src dst to, o ≠ .send cmd src dst to := by rintro cmd src dst to rfl; exact hf
  have hc : ∀ kd h to, o = .waiter (.call kd h to) → proxy h = false := by rintro kd h to rfl; exact hf
  obtain ⟨u, hu, hpc⟩ := h.send
  obtain ⟨t, ht, hk⟩ := h.task
  obtain ⟨tag, hi⟩ := h.rest.winv
  refine ⟨h.rest.step hs hc, h.mine.step h.rest.inv o, ?_, ?_, ?_⟩
  · obtain ⟨u', hu', tr⟩ := step_send c o K u hu
    refine ⟨u', hu', ?_⟩
    cases tr with
    | same => exact hpc
    | queued => exact hpc
    | received => exact hpc
    | timer a1 a2 => exact absurd (hf u hu a1) (by simp only [State.now] at a2 ⊢; omega)
    | rearm => exact .inl rfl
    | success => exact .inr rfl
    | giveUp a1 a2 => rw [a2] at hpc; simp at hpc
    | failed a1 => rw [a1] at hpc; simp at hpc
    | raised a1 => rw [a1] at hpc; simp at hpc
    | killed a1 => obtain ⟨r, hr⟩ := hf u hu; exact absurd hr (a1 r)
  · rcases step_wop c o with e | ⟨wo, e, -⟩
    · rw [e]; exact ⟨t, ht, hk⟩
    · rw [e]
      obtain ⟨t', h1, h2⟩ := Waiter.step_kind c.w wo T t ht
      exact ⟨t', h1, h2.trans hk⟩
  · rcases step_wop c o with e | ⟨wo, e, hwo⟩
    · rw [e]; exact h.hope
    · rw [e]
      have hraise : ∀ x, wo ≠ .sendRaise T x := by
        rintro x rfl
        rcases hwo with ⟨b, p, m, -, -, -, e3⟩ | e3 | ⟨e3, -⟩
        · cases e3
        · cases e3
        · exact hr x e3
      rcases h.hope with ha | ha
      · by_cases hmsg : wo = .message m
        · right
          subst hmsg
          rw [← hm] at ha
          exact ha.message ht fun _ => by rw [hk]; simp
        · left
          have hh : t.hid = hid := by
            obtain ⟨f, t', -, -, a1, a2, -⟩ := ha
            rw [ht] at a1; cases a1; exact a2
          refine ha.stay hi ⟨t, ht, hk⟩ ?_ ?_ hraise ?_
          · cases wo with
            | call kd h' to =>
              rcases hwo with ⟨b, p, m, -, -, -, e3⟩ | e3 | ⟨e3, -⟩
              · cases e3
              · cases e3
              · rintro rfl
                rw [hc kd _ to e3] at hp; cases hp
            | message m' =>
              rcases hwo with ⟨b, p, m2, e0, e1, e2, e3⟩ | e3 | e3
              · cases e3
                subst e0
                intro hh'
                rcases e2 with e2 | ⟨rfl, e2⟩
                · obtain ⟨d', hd', rfl⟩ := hf p m' e1 e2 (by rw [hh']; exact hp)
                  rw [hl] at hd'; cases hd'
                  exact hmsg (by rw [hd p m' e1 e2])
                · rw [e2] at hh'
                  rw [← hh'] at hp
                  exact absurd hp (by decide)
              · cases e3
              · exact absurd rfl (e3.2 m')
            | _ => trivial
          · rintro rfl
            rcases hwo with ⟨b, p, m, -, -, -, e3⟩ | e3 | ⟨e3, -⟩
            · cases e3
            · cases e3
            · subst e3
              obtain ⟨r, hr⟩ := hf t ht (by rw [hh]; exact hp)
              exact ha.open ht r hr
          · rintro rfl t' ht' hw'
            rcases hwo with ⟨b, p, m, -, -, -, e3⟩ | e3 | ⟨e3, -⟩
            · cases e3
            · cases e3
            · subst e3
              rw [ht] at ht'; cases ht'
              exact hf t ht (by rw [hh]; exact hp) hw'
      · right
        refine ha.stay ?_ hraise
        rintro rfl t' ht'
        rcases hwo with ⟨b, p, m, -, -, -, e3⟩ | e3 | ⟨e3, -⟩
        · cases e3
        · cases e3
        · subst e3
          refine hf t' ht' ?_
          obtain ⟨t2, f, b1, b2, b3, -⟩ := ha
          rw [ht'] at b1; cases b1
          rw [← (hi.fut T t' f ht' b2).1, ← hi.res f m b3, hm]
          exact hp

end Model.Conn

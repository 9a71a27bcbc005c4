import Verif.Props.Conn
/-!
# Property theorems C115: datagrams that make a connection raise
-/
namespace Props.Raises
open Spec Model Model.Conn

/-- The full property: no datagram makes the connection raise, in no state. -/
def C115_statement : Prop := ∀ (ops : List Op) (b : Bytes), ∃ r, (onPacket (run init ops) b).2 = .ok r

/-- **C115.** A Z/IP packet that says it has a command, and has none. -/
theorem C115_violated : ¬ C115_statement := by
  intro h
  obtain ⟨r, h⟩ := h [] [0x23, 0x02, 0x00, 0x40, 0x01, 0x00, 0x00]
  revert h
  rw [show (onPacket (run init []) [0x23, 0x02, 0x00, 0x40, 0x01, 0x00, 0x00]).2 = .error .attribute by decide +kernel]
  intro h
  cases h

/-- A "waiting" response for an outstanding send, in which the delay cannot be found: without header extension, or with one in which the option ends after its type. -/
def DelayMissing (s : State) (p : Msg) (e : PyErr) : Prop :=
  p.hid = 0x2302 ∧ p.flag "nackResponse" = true ∧ p.flag "nackWaiting" = true ∧ (∃ v i, p.num? "seqNo" = some v ∧ s.ackQueue.get? v = some i) ∧
    ((∀ d, p.attr "headerExtension" ≠ some (.hdr d)) ∧ e = .attribute ∨ ∃ d, p.attr "headerExtension" = some (.hdr d) ∧ expectedDelay d = .error e)

/-- A packet that is neither response nor request for one, and says that it has a command. -/
def SaysCommand (p : Msg) : Prop :=
  p.hid = 0x2302 ∧ p.flag "ackResponse" = false ∧ p.flag "nackResponse" = false ∧ p.flag "ackRequest" = false ∧ p.flag "zwCmdIncluded" = true

/-- Such a packet without a command. -/
def CommandMissing (p : Msg) (e : PyErr) : Prop := SaysCommand p ∧ p.command = none ∧ e = .attribute

/-- A message for a call whose wait is over already (it timed out), but which has not had its turn to end yet. -/
def TooLate (s : State) (p : Msg) (e : PyErr) : Prop :=
  ∃ c, (SaysCommand p ∧ p.command = some c ∨ p.hid = 0x5801 ∧ c = p) ∧ (∃ f, s.w.sessions.get? c.hid = some f ∧ s.w.futs[f]? ≠ some .pending) ∧ e = .invalidState

theorem waiter_error (w : Waiter.State) (m : Msg) (e : PyErr) : (Waiter.messageReceived w m).2 = .error e ↔
    (∃ f, w.sessions.get? m.hid = some f ∧ w.futs[f]? ≠ some .pending) ∧ e = .invalidState := by
  simp only [Waiter.messageReceived]
  rcases w.sessions.get? m.hid with _ | f
  · simp
  · simp only [Option.some.injEq, exists_eq_left']
    split
    · simp [*]
    · rename_i h
      constructor
      · intro h'; cases h'; exact ⟨fun hp => h hp, rfl⟩
      · rintro ⟨-, rfl⟩; rfl

theorem command_error (s : State) (p : Msg) (e : PyErr) : (commandReceived s p).2 = .error e ↔
    (p.hid = 0x2302 ∧ p.command = none ∧ e = .attribute) ∨
    ∃ c, (p.hid = 0x2302 ∧ p.command = some c ∨ p.hid ≠ 0x2302 ∧ c = p) ∧ (∃ f, s.w.sessions.get? c.hid = some f ∧ s.w.futs[f]? ≠ some .pending) ∧ e = .invalidState := by
  have key := fun m => waiter_error s.w m e
  simp only [commandReceived]
  by_cases hp : p.hid = 0x2302
  · rw [if_pos hp]
    rcases hc : p.command with _ | c
    · simp only
      constructor
      · intro h; cases h; exact .inl ⟨hp, by trivial, rfl⟩
      · rintro (⟨-, -, rfl⟩ | ⟨c, (⟨-, h⟩ | ⟨h, -⟩), -⟩)
        · rfl
        · cases h
        · exact absurd hp h
    · have : (∃ f, s.w.sessions.get? c.hid = some f ∧ s.w.futs[f]? ≠ some .pending) ∧ e = .invalidState ↔
          (p.hid = 0x2302 ∧ some c = none ∧ e = .attribute) ∨
          ∃ c', (p.hid = 0x2302 ∧ some c = some c' ∨ p.hid ≠ 0x2302 ∧ c' = p) ∧ (∃ f, s.w.sessions.get? c'.hid = some f ∧ s.w.futs[f]? ≠ some .pending) ∧ e = .invalidState := by
        constructor
        · intro h; exact .inr ⟨c, .inl ⟨hp, rfl⟩, h⟩
        · rintro (⟨-, h, -⟩ | ⟨c', (⟨-, h⟩ | ⟨h, -⟩), h'⟩)
          · cases h
          · cases h; exact h'
          · exact absurd hp h
      rw [← this, ← key c]
      rcases hm : Waiter.messageReceived s.w c with ⟨w, (e' | b)⟩
      · simp [hm]
      · cases b <;> simp [hm]
  · rw [if_neg hp]
    have : (∃ f, s.w.sessions.get? p.hid = some f ∧ s.w.futs[f]? ≠ some .pending) ∧ e = .invalidState ↔
        (p.hid = 0x2302 ∧ p.command = none ∧ e = .attribute) ∨
        ∃ c', (p.hid = 0x2302 ∧ p.command = some c' ∨ p.hid ≠ 0x2302 ∧ c' = p) ∧ (∃ f, s.w.sessions.get? c'.hid = some f ∧ s.w.futs[f]? ≠ some .pending) ∧ e = .invalidState := by
      constructor
      · intro h; exact .inr ⟨p, .inr ⟨hp, rfl⟩, h⟩
      · rintro (⟨h, -⟩ | ⟨c', (⟨h, -⟩ | ⟨-, h⟩), h'⟩)
        · exact absurd h hp
        · exact absurd h hp
        · cases h; exact h'
    rw [← this, ← key p]
    rcases hm : Waiter.messageReceived s.w p with ⟨w, (e' | b)⟩
    · simp [hm]
    · cases b <;> simp [hm]

theorem ack_error (s : State) (hown : ∀ v i, s.ackQueue.get? v = some i → ∃ t, s.sends[i]? = some t) (p : Msg) (hp : p.hid = 0x2302) (e : PyErr) :
    (ackReceived s p).2 = .error e ↔ DelayMissing s p e := by
  unfold DelayMissing ackReceived
  simp only [hp, true_and]
  by_cases hw : p.flag "nackResponse" = true ∧ p.flag "nackWaiting" = true
  · rw [if_pos hw]
    simp only [hw, true_and, lookup]
    rcases hs : p.num? "seqNo" with _ | v
    · simp
    · simp only [Option.some.injEq]
      rcases hq : s.ackQueue.get? v with _ | i
      · simp [hq]
      · obtain ⟨t, ht⟩ := hown v i hq
        simp only [ht]
        have : (∃ v' i', v = v' ∧ s.ackQueue.get? v' = some i') := ⟨v, i, rfl, hq⟩
        simp only [this, true_and]
        split
        · rename_i d hd
          rcases he : expectedDelay d with e' | x
          · simp only [Except.error.injEq, hd, Option.some.injEq, Val.hdr.injEq, exists_eq_left', he]
            constructor
            · rintro rfl; exact .inr rfl
            · rintro (⟨h, -⟩ | h)
              · exact absurd rfl (h d)
              · exact h
          · simp [he, hd]
        · rename_i h
          constructor
          · intro h'; cases h'; exact .inl ⟨fun d hd => h d hd, rfl⟩
          · rintro (⟨-, rfl⟩ | ⟨d, hd, -⟩)
            · rfl
            · exact absurd hd (h d)
  · rw [if_neg hw]
    constructor
    · intro h
      exfalso
      revert h
      repeat' split
      all_goals simp
    · rintro ⟨h1, h2, -⟩
      exact absurd ⟨h1, h2⟩ hw

/-- **C115.** What holds: in every history exactly these datagrams make the connection raise, with these exceptions. -/
theorem C115_exact_partial (ops : List Op) (b : Bytes) (e : PyErr) : let s := run init ops
    (onPacket s b).2 = .error e ↔ ∃ p, decode b = .ok p ∧ (DelayMissing s p e ∨ CommandMissing p e ∨ TooLate s p e) := by
  intro s
  have hown : ∀ v i, s.ackQueue.get? v = some i → ∃ t, s.sends[i]? = some t := by
    intro v i h
    obtain ⟨t, ht, -⟩ := (inv_run ops).own v i h
    exact ⟨t, ht⟩
  generalize s = s at hown
  simp only [onPacket]
  rcases hd : decode b with e' | p
  · simp
  · simp only [Except.ok.injEq, exists_eq_left']
    by_cases hp : p.hid = 0x2302
    · rw [if_pos hp]
      have h58 : ¬ p.hid = 0x5801 := by rw [hp]; decide
      by_cases ha : p.flag "ackResponse" = true
      · rw [if_pos ha]
        refine Iff.trans (b := (ackReceived s p).2 = .error e) (by rcases hk : ackReceived s p with ⟨x, (y | y)⟩ <;> simp [hk]) ?_
        rw [ack_error s hown p hp]
        constructor
        · exact .inl
        · rintro (h | ⟨⟨-, h, -⟩, -⟩ | ⟨c, (⟨⟨-, h, -⟩, -⟩ | ⟨h, -⟩), -⟩)
          · exact h
          · rw [ha] at h; cases h
          · rw [ha] at h; cases h
          · exact absurd h h58
      · rw [if_neg ha]
        have ha' : p.flag "ackResponse" = false := by simpa using ha
        by_cases hn : p.flag "nackResponse" = true
        · rw [if_pos hn]
          by_cases hw : p.flag "nackWaiting" = true
          · rw [if_pos hw]
            refine Iff.trans (b := (ackReceived s p).2 = .error e) (by rcases hk : ackReceived s p with ⟨x, (y | y)⟩ <;> simp [hk]) ?_
            rw [ack_error s hown p hp]
            constructor
            · exact .inl
            · rintro (h | ⟨⟨-, -, h, -⟩, -⟩ | ⟨c, (⟨⟨-, -, h, -⟩, -⟩ | ⟨h, -⟩), -⟩)
              · exact h
              · rw [hn] at h; cases h
              · rw [hn] at h; cases h
              · exact absurd h h58
          · rw [if_neg hw]
            constructor
            · intro h; cases h
            · rintro (⟨-, -, h, -⟩ | ⟨⟨-, -, h, -⟩, -⟩ | ⟨c, (⟨⟨-, -, h, -⟩, -⟩ | ⟨h, -⟩), -⟩)
              · exact absurd h hw
              · rw [hn] at h; cases h
              · rw [hn] at h; cases h
              · exact absurd h h58
        · rw [if_neg hn]
          have hn' : p.flag "nackResponse" = false := by simpa using hn
          by_cases hr : p.flag "ackRequest" = true
          · rw [if_pos hr]
            constructor
            · intro h; cases h
            · rintro (⟨-, h, -⟩ | ⟨⟨-, -, -, h, -⟩, -⟩ | ⟨c, (⟨⟨-, -, -, h, -⟩, -⟩ | ⟨h, -⟩), -⟩)
              · exact absurd h hn
              · rw [hr] at h; cases h
              · rw [hr] at h; cases h
              · exact absurd h h58
          · rw [if_neg hr]
            have hr' : p.flag "ackRequest" = false := by simpa using hr
            by_cases hz : p.flag "zwCmdIncluded" = true
            · have hsay : SaysCommand p := ⟨hp, ha', hn', hr', hz⟩
              rw [if_pos hz]
              refine Iff.trans (b := (commandReceived s p).2 = .error e) (by rcases hk : commandReceived s p with ⟨x, (y | y)⟩ <;> simp [hk]) ?_
              rw [command_error]
              constructor
              · rintro (⟨-, h, h'⟩ | ⟨c, (⟨-, h⟩ | ⟨h, -⟩), h'⟩)
                · exact .inr (.inl ⟨hsay, h, h'⟩)
                · exact .inr (.inr ⟨c, .inl ⟨hsay, h⟩, h'⟩)
                · exact absurd hp h
              · rintro (⟨-, h, -⟩ | ⟨-, h, h'⟩ | ⟨c, (⟨-, h⟩ | ⟨h, -⟩), h'⟩)
                · exact absurd h hn
                · exact .inl ⟨hp, h, h'⟩
                · exact .inr ⟨c, .inl ⟨hp, h⟩, h'⟩
                · exact absurd h h58
            · rw [if_neg hz]
              constructor
              · intro h; cases h
              · rintro (⟨-, h, -⟩ | ⟨⟨-, -, -, -, h⟩, -⟩ | ⟨c, (⟨⟨-, -, -, -, h⟩, -⟩ | ⟨h, -⟩), -⟩)
                · exact absurd h hn
                · exact absurd h hz
                · exact absurd h hz
                · exact absurd h h58
    · rw [if_neg hp]
      have off : ¬ DelayMissing s p e ∧ ¬ CommandMissing p e ∧ (TooLate s p e → p.hid = 0x5801) :=
        ⟨fun h => hp h.1, fun h => hp h.1.1, fun ⟨_, h, _⟩ => h.elim (fun h => absurd h.1.1 hp) (fun h => h.1)⟩
      by_cases h3 : p.hid = 0x2303
      · rw [if_pos h3]
        constructor
        · intro h; cases h
        · rintro (h | h | h)
          · exact absurd h off.1
          · exact absurd h off.2.1
          · exact absurd (off.2.2 h) (by rw [h3]; decide)
      · rw [if_neg h3]
        by_cases h58 : p.hid = 0x5801
        · rw [if_pos h58]
          refine Iff.trans (b := (commandReceived s p).2 = .error e) (by rcases hk : commandReceived s p with ⟨x, (y | y)⟩ <;> simp [hk]) ?_
          rw [command_error]
          constructor
          · rintro (⟨h, -⟩ | ⟨c, (⟨h, -⟩ | ⟨-, h⟩), h'⟩)
            · exact absurd h hp
            · exact absurd h hp
            · exact .inr (.inr ⟨c, .inr ⟨h58, h⟩, h'⟩)
          · rintro (h | h | ⟨c, (⟨h, -⟩ | ⟨-, h⟩), h'⟩)
            · exact absurd h off.1
            · exact absurd h off.2.1
            · exact absurd h.1 hp
            · exact .inr ⟨c, .inr ⟨hp, h⟩, h'⟩
        · rw [if_neg h58]
          constructor
          · intro h; cases h
          · rintro (h | h | h)
            · exact absurd h off.1
            · exact absurd h off.2.1
            · exact absurd (off.2.2 h) h58

theorem onPacket_parts (s : State) (b : Bytes) (e : PyErr) (h : (onPacket s b).2 = .error e) :
    ∃ p, (ackReceived s p).2 = .error e ∧ (onPacket s b).1 = (ackReceived s p).1 ∨ (commandReceived s p).2 = .error e ∧ (onPacket s b).1 = (commandReceived s p).1 := by
  revert h
  simp only [onPacket]
  rcases decode b with e' | p
  · intro h; cases h
  · simp only
    intro h
    refine ⟨p, ?_⟩
    revert h
    have hA : ∀ x, x = ackReceived s p → (match x with | (s, .ok _) => (s, Except.ok true) | (s, .error e) => ((s, .error e) : State × Py Bool)).2 = .error e →
        (ackReceived s p).2 = .error e ∧ (match x with | (s, .ok _) => (s, Except.ok true) | (s, .error e) => ((s, .error e) : State × Py Bool)).1 = (ackReceived s p).1 := by
      rintro ⟨x, (y | y)⟩ hx <;> simp [← hx]
    have hC : ∀ x, x = commandReceived s p → (match x with | (s, .ok _) => (s, Except.ok true) | (s, .error e) => ((s, .error e) : State × Py Bool)).2 = .error e →
        (commandReceived s p).2 = .error e ∧ (match x with | (s, .ok _) => (s, Except.ok true) | (s, .error e) => ((s, .error e) : State × Py Bool)).1 = (commandReceived s p).1 := by
      rintro ⟨x, (y | y)⟩ hx <;> simp [← hx]
    repeat' split
    all_goals first
      | (intro h; cases h; done)
      | simp_all

theorem command_state (s : State) (p : Msg) (e : PyErr) (h : (commandReceived s p).2 = .error e) :
    ∃ w, (w.futs = s.w.futs ∧ w.tasks = s.w.tasks) ∧ (commandReceived s p).1 = { s with w := w } := by
  revert h
  simp only [commandReceived]
  rcases (if p.hid = 0x2302 then p.command else some p) with _ | c
  · intro _; exact ⟨s.w, ⟨rfl, rfl⟩, rfl⟩
  · simp only
    have hm : ∀ e, (Waiter.messageReceived s.w c).2 = .error e → (Waiter.messageReceived s.w c).1.futs = s.w.futs ∧ (Waiter.messageReceived s.w c).1.tasks = s.w.tasks := by
      intro e
      simp only [Waiter.messageReceived]
      rcases s.w.sessions.get? c.hid with _ | f
      · intro h; cases h
      · simp only
        split
        · intro h; cases h
        · intro _; exact ⟨rfl, rfl⟩
    rcases hk : Waiter.messageReceived s.w c with ⟨w, (e' | b)⟩
    · rw [hk] at hm
      simp only
      intro _
      exact ⟨w, hm e' rfl, rfl⟩
    · cases b <;> (simp only; intro h; cases h)

theorem ack_state (s : State) (p : Msg) (e : PyErr) (h : (ackReceived s p).2 = .error e) : (ackReceived s p).1 = s := by
  revert h
  simp only [ackReceived]
  repeat' split
  all_goals (intro h; first | rfl | cases h)

/-- **C115.** A datagram that makes the connection raise completes and ends no call, no listener is told, and nothing is sent. -/
theorem C115_harmless_partial (s : State) (b : Bytes) (e : PyErr) (h : (onPacket s b).2 = .error e) :
    let s' := (onPacket s b).1
    s'.sends = s.sends ∧ s'.ackQueue = s.ackQueue ∧ s'.heard = s.heard ∧ s'.out = s.out ∧ s'.connected = s.connected ∧ s'.keepAlive = s.keepAlive ∧
      s'.timers = s.timers ∧ s'.w.futs = s.w.futs ∧ s'.w.tasks = s.w.tasks := by
  obtain ⟨p, (⟨h1, h2⟩ | ⟨h1, h2⟩)⟩ := onPacket_parts s b e h
  · simp only [h2, ack_state s p e h1, and_self]
  · obtain ⟨w, ⟨hw, hw'⟩, hs⟩ := command_state s p e h1
    simp only [h2, hs, hw, hw', and_self]

/-- Each of the three happens: the delay option ends after its type or is absent; no command; the wait is over. -/
example : let s := run init [.send .pure 0 0 3]
    (onPacket s [0x23, 0x02, 0x30, 0x10, 0x01, 0x00, 0x00]).2 = .error .attribute ∧
    (onPacket s [0x23, 0x02, 0x30, 0x90, 0x01, 0x00, 0x00, 0x02, 0x01, 0x00]).2 = .error .type ∧
    (onPacket s [0x23, 0x02, 0x30, 0x90, 0x01, 0x00, 0x00, 0x06, 0x01, 0x03, 0x00, 0x00, 0x05]).2 = .ok true ∧
    (onPacket (run init [.waiter (.call .plain 0x2503 1), .tick, .waiter (.timer 0), .waiter (.resume 0)])
      [0x23, 0x02, 0x00, 0x50, 0x07, 0x00, 0x00, 0x25, 0x03, 0xFF]).2 = .error .invalidState ∧
    (onPacket (run init [.waiter (.call .plain 0x2503 1), .tick, .waiter (.timer 0), .waiter (.resume 0), .waiter (.cancelDone 0)])
      [0x23, 0x02, 0x00, 0x50, 0x07, 0x00, 0x00, 0x25, 0x03, 0xFF]).2 = .ok true ∧
    (onPacket init [0x23, 0x02, 0x30, 0x10, 0x01, 0x00, 0x00]).2 = .ok true := by decide +kernel

end Props.Raises

import Verif.Spec.Conn
import Verif.Lemmas.Waiter
/-! # Lemmas about connections -/
namespace Model.Conn
open Spec
open Waiter (lt_of_getElem? getElem?_set_cases getElem?_set_some)

theorem snoc_ind {α : Type} {P : List α → Prop} (nil : P []) (snoc : ∀ l a, P l → P (l ++ [a])) (l : List α) : P l := by
  have : ∀ l : List α, P l.reverse := by
    intro l
    induction l with
    | nil => exact nil
    | cons a l ih => rw [List.reverse_cons]; exact snoc _ _ ih
  rw [← List.reverse_reverse l]; exact this _

/-- The effect of a packet on calls of `send`. -/
theorem onPacket_cases (s : State) (b : Bytes) :
    ((onPacket s b).1.sends = s.sends ∧ (onPacket s b).1.ackQueue = s.ackQueue ∧ (onPacket s b).1.seq = s.seq ∧ (onPacket s b).1.w.now = s.w.now ∧
      (onPacket s b).1.timers = s.timers ∧ (onPacket s b).1.keepAlive = s.keepAlive ∧ (onPacket s b).1.nextTimer = s.nextTimer) ∨
    (∃ p v i t x d, decode b = .ok p ∧ p.hid = 0x2302 ∧ p.flag "nackResponse" = true ∧ p.flag "nackWaiting" = true ∧ p.num? "seqNo" = some v ∧
      s.ackQueue.get? v = some i ∧ s.sends[i]? = some t ∧ p.attr "headerExtension" = some (.hdr x) ∧ expectedDelay x = .ok d ∧
      (onPacket s b) = ({ s with sends := s.sends.set i (t.queued d) }, .ok true)) ∨
    (∃ p v i t, decode b = .ok p ∧ p.hid = 0x2302 ∧ p.flag "ackResponse" = true ∧ ¬ (p.flag "nackResponse" = true ∧ p.flag "nackWaiting" = true) ∧
      p.num? "seqNo" = some v ∧ s.ackQueue.get? v = some i ∧ s.sends[i]? = some t ∧
      (onPacket s b) = ({ s with ackQueue := s.ackQueue.erase v, sends := s.sends.set i t.received }, .ok true)) := by
  have hcmd : ∀ p, (commandReceived s p).1.sends = s.sends ∧ (commandReceived s p).1.ackQueue = s.ackQueue ∧ (commandReceived s p).1.seq = s.seq ∧
      (commandReceived s p).1.w.now = s.w.now ∧ (commandReceived s p).1.timers = s.timers ∧ (commandReceived s p).1.keepAlive = s.keepAlive ∧
      (commandReceived s p).1.nextTimer = s.nextTimer := by
    intro p
    simp only [commandReceived]
    generalize (if p.hid = 0x2302 then p.command else some p) = o
    cases o with
    | none => exact ⟨rfl, rfl, rfl, rfl, rfl, rfl, rfl⟩
    | some m =>
      have := Waiter.msg_now s.w m
      cases hm : Waiter.messageReceived s.w m with
      | mk w r =>
        rw [hm] at this
        cases r with
        | error e => simpa [hm] using this
        | ok c => cases c <;> simpa [hm] using this
  cases hd : decode b with
  | error e => left; simp only [onPacket, hd, and_self]
  | ok p =>
    by_cases hz : p.hid = 0x2302
    · by_cases hw : p.flag "nackResponse" = true ∧ p.flag "nackWaiting" = true
      · -- a waiting response
        have he : onPacket s b = match ackReceived s p with
          | (s, .ok _) => (s, .ok true)
          | (s, .error e) => (s, .error e) := by
          simp only [onPacket, hd, hz, hw.1, hw.2, if_true]
          split <;> rfl
        cases hl : p.num? "seqNo" with
        | none => left; rw [he]; simp only [ackReceived, hw.1, hw.2, lookup, hl, and_self, if_true]
        | some v =>
          cases hq : s.ackQueue.get? v with
          | none => left; rw [he]; simp only [ackReceived, hw.1, hw.2, lookup, hl, hq, and_self, if_true]
          | some i =>
            cases ht : s.sends[i]? with
            | none => left; rw [he]; simp only [ackReceived, hw.1, hw.2, lookup, hl, hq, ht, and_self, if_true]
            | some t =>
              by_cases hx : ∃ x, p.attr "headerExtension" = some (.hdr x)
              · obtain ⟨x, hx⟩ := hx
                cases hdl : expectedDelay x with
                | error e => left; rw [he]; simp only [ackReceived, hw.1, hw.2, lookup, hl, hq, ht, hx, hdl, and_self, if_true]
                | ok d =>
                  right; left
                  refine ⟨p, v, i, t, x, d, rfl, hz, hw.1, hw.2, hl, hq, ht, hx, hdl, ?_⟩
                  rw [he]; simp only [ackReceived, hw.1, hw.2, lookup, hl, hq, ht, hx, hdl, and_self, if_true]
              · have hr : ackReceived s p = (s, .error .attribute) := by
                  simp only [ackReceived, hw.1, hw.2, lookup, hl, hq, ht, and_self, if_true]
                  split
                  · rename_i hc; exact absurd ⟨_, hc⟩ hx
                  · rfl
                left; rw [he, hr]; simp only [and_self]
      · by_cases ha : p.flag "ackResponse" = true
        · have he : onPacket s b = match ackReceived s p with
            | (s, .ok _) => (s, .ok true)
            | (s, .error e) => (s, .error e) := by
            simp only [onPacket, hd, hz, ha, if_true]
            rfl
          cases hl : p.num? "seqNo" with
          | none => left; rw [he]; simp only [ackReceived, if_neg hw, hl, and_self]
          | some v =>
            cases hq : s.ackQueue.get? v with
            | none => left; rw [he]; simp only [ackReceived, if_neg hw, hl, hq, and_self]
            | some i =>
              cases ht : s.sends[i]? with
              | none => left; rw [he]; simp only [ackReceived, if_neg hw, hl, hq, ht, and_self]
              | some t =>
                right; right
                refine ⟨p, v, i, t, rfl, hz, ha, hw, hl, hq, ht, ?_⟩
                rw [he]; simp only [ackReceived, if_neg hw, hl, hq, ht]
        · left
          simp only [onPacket, hd, hz, if_true, if_neg ha]
          by_cases hn : p.flag "nackResponse" = true
          · have : p.flag "nackWaiting" = false := by
              cases h : p.flag "nackWaiting" with
              | false => rfl
              | true => exact absurd ⟨hn, h⟩ hw
            simp [hn, this]
          · have hc := hcmd p
            simp only [if_neg hn]
            split
            · simp
            · split
              · cases hcr : commandReceived s p with
                | mk s' r =>
                  rw [hcr] at hc
                  cases r <;> exact hc
              · simp
    · left
      simp only [onPacket, hd, if_neg hz]
      split
      · simp
      · split
        · have hc := hcmd p
          cases hcr : commandReceived s p with
          | mk s' r =>
            rw [hcr] at hc
            cases r <;> exact hc
        · simp

/-- What can happen to one call of `send` in one step. -/
inductive Trans (s : State) (i : Nat) (t : Send) : Op → Send → Prop
  | same (op : Op) : Trans s i t op t
  | queued (b : Bytes) (q : Int) (d : Int) (p : Msg) (x : Dict Nat OptVal) : decode b = .ok p → p.hid = 0x2302 → p.flag "nackResponse" = true →
      p.flag "nackWaiting" = true → p.num? "seqNo" = some q → p.attr "headerExtension" = some (.hdr x) → expectedDelay x = .ok d →
      s.ackQueue.get? q = some i → Trans s i t (.packet b) (t.queued d)
  | received (b : Bytes) (q : Int) (p : Msg) : decode b = .ok p → p.hid = 0x2302 → p.flag "ackResponse" = true →
      ¬ (p.flag "nackResponse" = true ∧ p.flag "nackWaiting" = true) → p.num? "seqNo" = some q →
      s.ackQueue.get? q = some i → (step s (.packet b)).ackQueue = s.ackQueue.erase q → Trans s i t (.packet b) t.received
  | timer : t.pc = .waiting → t.deadline ≤ s.now → Trans s i t (.timer i) { t with pc := .timedOut }
  | rearm : t.inner = true → t.pc = .waiting ∨ t.pc = .timedOut → t.status = .queued →
      Trans s i t (.resume i) { t with pc := .waiting, inner := false, deadline := s.now + t.delay.toNat }
  | success : t.inner = true → t.pc = .waiting ∨ t.pc = .timedOut → t.status ≠ .queued → Trans s i t (.resume i) { t with pc := .done (.ok true) }
  | giveUp : t.inner = false → t.pc = .timedOut → Trans s i t (.resume i) { t with pc := .cancelling }
  | failed : t.pc = .cancelling → s.ackQueue.mem (t.seq : Int) = true → (step s (.cancelled i)).ackQueue = s.ackQueue.erase (t.seq : Int) →
      Trans s i t (.cancelled i) { t with pc := .done (.ok false) }
  | raised : t.pc = .cancelling → s.ackQueue.mem (t.seq : Int) = false → Trans s i t (.cancelled i) { t with pc := .done (.error .key) }
  | killed : (∀ r, t.pc ≠ .done r) → Trans s i t (.kill i) { t with pc := .done (.error .cancelled) }

theorem reset_sends (s : State) : (resetKeepAlive s).sends = s.sends ∧ (resetKeepAlive s).ackQueue = s.ackQueue ∧ (resetKeepAlive s).seq = s.seq ∧
    (resetKeepAlive s).w = s.w := ⟨rfl, rfl, rfl, rfl⟩

theorem transmit_sends (s : State) (b : Bytes) : (transmit s b).sends = s.sends ∧ (transmit s b).ackQueue = s.ackQueue ∧ (transmit s b).seq = s.seq ∧
    (transmit s b).w = s.w ∧ (transmit s b).timers = s.timers ∧ (transmit s b).keepAlive = s.keepAlive ∧ (transmit s b).nextTimer = s.nextTimer := by
  simp only [transmit]; split <;> exact ⟨rfl, rfl, rfl, rfl, rfl, rfl, rfl⟩

theorem keepAlive_sends (s : State) (pkt : Py Bytes) : (keepAlive s pkt).sends = s.sends ∧ (keepAlive s pkt).ackQueue = s.ackQueue ∧
    (keepAlive s pkt).seq = s.seq ∧ (keepAlive s pkt).w = s.w := by
  simp only [keepAlive]
  split
  · obtain ⟨a, b, c, d, -⟩ := transmit_sends s (by assumption)
    exact ⟨a, b, c, d⟩
  · exact ⟨rfl, rfl, rfl, rfl⟩

/-- The three outcomes of the first part of a call of `send`. -/
theorem send_cases (s : State) (cmd : Msg) (src dst : Int) (timeout : Nat) :
    (∃ e, (packetFor ((s.seq + 1) % 256) src dst cmd).bind compose = .error e ∧ (send s cmd src dst timeout).ackQueue = s.ackQueue ∧
      (send s cmd src dst timeout).sends = s.sends ++ [⟨(s.seq + 1) % 256, .done (.error e), .pending, 0, false, 0⟩]) ∨
    (∃ b, (packetFor ((s.seq + 1) % 256) src dst cmd).bind compose = .ok b ∧ s.ackQueue.mem (((s.seq + 1) % 256 : Nat) : Int) = true ∧
      (send s cmd src dst timeout).ackQueue = s.ackQueue ∧
      (send s cmd src dst timeout).sends = s.sends ++ [⟨(s.seq + 1) % 256, .done (.error .duplicateAck), .pending, 0, false, 0⟩]) ∨
    (∃ b, (packetFor ((s.seq + 1) % 256) src dst cmd).bind compose = .ok b ∧ s.ackQueue.mem (((s.seq + 1) % 256 : Nat) : Int) = false ∧
      (send s cmd src dst timeout).ackQueue = s.ackQueue.set (((s.seq + 1) % 256 : Nat) : Int) s.sends.length ∧
      (send s cmd src dst timeout).sends = s.sends ++ [⟨(s.seq + 1) % 256, .waiting, .pending, 0, false, s.now + timeout⟩]) := by
  generalize hp : (packetFor ((s.seq + 1) % 256) src dst cmd).bind compose = pkt
  have hs : send s cmd src dst timeout = transmitAndWait { s with seq := (s.seq + 1) % 256 } pkt timeout := by rw [← hp]; rfl
  rw [hs]
  cases pkt with
  | error e =>
    left
    exact ⟨e, rfl, rfl, rfl⟩
  | ok b =>
    right
    obtain ⟨t1, t2, t3, t4, -⟩ := transmit_sends { s with seq := (s.seq + 1) % 256 } b
    have r := reset_sends (transmit { s with seq := (s.seq + 1) % 256 } b)
    rw [t1, t2, t3, t4] at r
    obtain ⟨r1, r2, r3, r4⟩ := r
    by_cases hm : s.ackQueue.mem (((s.seq + 1) % 256 : Nat) : Int) = true
    · left
      refine ⟨b, rfl, hm, ?_, ?_⟩
      · simp only [transmitAndWait, r2, r3, hm, if_true]
      · simp only [transmitAndWait, r1, r2, r3, hm, if_true]
    · right
      refine ⟨b, rfl, by simpa using hm, ?_, ?_⟩
      · simp only [transmitAndWait, r1, r2, r3, if_neg hm]
      · simp only [transmitAndWait, r1, r2, r3, if_neg hm, State.now, r4]

theorem send_frame (s : State) (cmd : Msg) (src dst : Int) (timeout : Nat) :
    (send s cmd src dst timeout).seq = (s.seq + 1) % 256 ∧ (send s cmd src dst timeout).w = s.w := by
  generalize hp : (packetFor ((s.seq + 1) % 256) src dst cmd).bind compose = pkt
  have hs : send s cmd src dst timeout = transmitAndWait { s with seq := (s.seq + 1) % 256 } pkt timeout := by rw [← hp]; rfl
  rw [hs]
  cases pkt with
  | error e => exact ⟨rfl, rfl⟩
  | ok b =>
    obtain ⟨t1, t2, t3, t4, -⟩ := transmit_sends { s with seq := (s.seq + 1) % 256 } b
    have r := reset_sends (transmit { s with seq := (s.seq + 1) % 256 } b)
    rw [t1, t2, t3, t4] at r
    obtain ⟨r1, r2, r3, r4⟩ := r
    simp only [transmitAndWait]
    split
    · exact ⟨r3, r4⟩
    · exact ⟨r3, r4⟩

/-- Every call of `send` after a step is new or was there before and made one of the known transitions; calls never disappear. -/
theorem step_send (s : State) (op : Op) (i : Nat) (t : Send) (ht : s.sends[i]? = some t) :
    ∃ t', (step s op).sends[i]? = some t' ∧ Trans s i t op t' := by
  have frame : (step s op).sends = s.sends → ∃ t', (step s op).sends[i]? = some t' ∧ Trans s i t op t' :=
    fun h => ⟨t, by rw [h]; exact ht, .same op⟩
  have other : ∀ (j : Nat) (u : Send), j ≠ i → (s.sends.set j u)[i]? = some t := by
    intro j u h
    rw [List.getElem?_set_ne h]; exact ht
  cases op with
  | connect => exact frame rfl
  | send cmd src dst timeout =>
    refine ⟨t, ?_, .same _⟩
    have hlt := lt_of_getElem? ht
    rcases send_cases s cmd src dst timeout with ⟨e, -, -, h⟩ | ⟨b, -, -, -, h⟩ | ⟨b, -, -, -, h⟩
    all_goals simp only [step, h]; rw [List.getElem?_append_left hlt]; exact ht
  | packet b =>
    rcases onPacket_cases s b with ⟨h, -⟩ | ⟨p, v, j, u, x, d, h1, h2, h3, h4, h5, h6, h7, h8, h9, h10⟩ | ⟨p, v, j, u, h1, h2, h3, h4, h5, h6, h7, h8⟩
    · exact frame h
    · by_cases hj : j = i
      · subst hj
        rw [ht] at h7; cases h7
        exact ⟨_, by simp only [step, h10]; exact getElem?_set_some ht, .queued b v d p x h1 h2 h3 h4 h5 h8 h9 h6⟩
      · exact ⟨t, by simp only [step, h10]; exact other j _ hj, .same _⟩
    · by_cases hj : j = i
      · subst hj
        rw [ht] at h7; cases h7
        exact ⟨_, by simp only [step, h8]; exact getElem?_set_some ht, .received b v p h1 h2 h3 h4 h5 h6 (by simp only [step, h8])⟩
      · exact ⟨t, by simp only [step, h8]; exact other j _ hj, .same _⟩
  | tick => exact frame rfl
  | timer j =>
    by_cases hj : j = i
    · subst hj
      by_cases hc : t.pc = .waiting ∧ t.deadline ≤ s.now
      · exact ⟨_, by simp only [step, ht, if_pos hc]; exact getElem?_set_some ht, .timer hc.1 hc.2⟩
      · exact frame (by simp only [step, ht, if_neg hc])
    · refine ⟨t, ?_, .same _⟩
      simp only [step]
      split
      · exact ht
      · split
        · exact other j _ hj
        · exact ht
  | resume j =>
    by_cases hj : j = i
    · subst hj
      by_cases hc : t.inner = true ∧ (t.pc = .waiting ∨ t.pc = .timedOut)
      · by_cases hq : t.status = .queued
        · exact ⟨_, by simp only [step, ht, if_pos hc, if_pos hq]; exact getElem?_set_some ht, .rearm hc.1 hc.2 hq⟩
        · exact ⟨_, by simp only [step, ht, if_pos hc, if_neg hq]; exact getElem?_set_some ht, .success hc.1 hc.2 hq⟩
      · by_cases hp : t.pc = .timedOut
        · refine ⟨_, by simp only [step, ht, if_neg hc, if_pos hp]; exact getElem?_set_some ht, .giveUp ?_ hp⟩
          cases hi : t.inner with
          | false => rfl
          | true => exact absurd ⟨hi, Or.inr hp⟩ hc
        · exact frame (by simp only [step, ht, if_neg hc, if_neg hp])
    · refine ⟨t, ?_, .same _⟩
      simp only [step]
      split
      · exact ht
      · split
        · split <;> exact other j _ hj
        · split
          · exact other j _ hj
          · exact ht
  | cancelled j =>
    by_cases hj : j = i
    · subst hj
      by_cases hc : t.pc = .cancelling
      · by_cases hq : s.ackQueue.mem (t.seq : Int) = true
        · exact ⟨_, by simp only [step, ht, if_pos hc, if_pos hq]; exact getElem?_set_some ht, .failed hc hq (by simp only [step, ht, if_pos hc, if_pos hq])⟩
        · exact ⟨_, by simp only [step, ht, if_pos hc, if_neg hq]; exact getElem?_set_some ht, .raised hc (by simpa using hq)⟩
      · exact frame (by simp only [step, ht, if_neg hc])
    · refine ⟨t, ?_, .same _⟩
      simp only [step]
      split
      · exact ht
      · split
        · split <;> exact other j _ hj
        · exact ht
  | kill j =>
    by_cases hj : j = i
    · subst hj
      by_cases hc : ∃ r, t.pc = .done r
      · obtain ⟨r, hr⟩ := hc
        exact frame (by simp only [step, ht, hr])
      · have hn : ∀ r, t.pc ≠ .done r := fun r h => hc ⟨r, h⟩
        refine ⟨_, ?_, .killed hn⟩
        simp only [step, ht]
        exact getElem?_set_some ht
    · refine ⟨t, ?_, .same _⟩
      simp only [step]
      split
      · exact ht
      · split
        · exact ht
        · exact other j _ hj
  | fire k =>
    refine frame ?_
    simp only [step]
    split
    · rfl
    · split
      · exact (keepAlive_sends _ _).1
      · rfl
  | waiter o => exact frame (by cases o <;> rfl)

/-- A new entry of the list of calls comes from a call of `send`. -/
theorem step_new (s : State) (op : Op) (i : Nat) (t : Send) (hn : s.sends[i]? = none) (ht : (step s op).sends[i]? = some t) :
    i = s.sends.length ∧ ∃ cmd src dst timeout, op = .send cmd src dst timeout ∧
      ((∃ e, t = ⟨(s.seq + 1) % 256, .done (.error e), .pending, 0, false, 0⟩ ∧ (step s op).ackQueue = s.ackQueue) ∨
       (t = ⟨(s.seq + 1) % 256, .waiting, .pending, 0, false, s.now + timeout⟩ ∧ s.ackQueue.mem (((s.seq + 1) % 256 : Nat) : Int) = false ∧
        (step s op).ackQueue = s.ackQueue.set (((s.seq + 1) % 256 : Nat) : Int) s.sends.length)) := by
  have hge : s.sends.length ≤ i := by
    rcases Nat.lt_or_ge i s.sends.length with h | h
    · rw [List.getElem?_eq_getElem h] at hn; cases hn
    · exact h
  have same : (step s op).sends.length = s.sends.length → False := by
    intro h
    have := lt_of_getElem? ht
    omega
  cases op with
  | send cmd src dst timeout =>
    have pos : ∀ u, (step s (.send cmd src dst timeout)).sends = s.sends ++ [u] → i = s.sends.length ∧ t = u := by
      intro u h
      rw [h] at ht
      have := lt_of_getElem? ht
      simp at this
      have hi : i = s.sends.length := by omega
      subst hi
      simp at ht
      exact ⟨rfl, ht.symm⟩
    rcases send_cases s cmd src dst timeout with ⟨e, -, hq, h⟩ | ⟨b, -, -, hq, h⟩ | ⟨b, -, hm, hq, h⟩
    · obtain ⟨p1, p2⟩ := pos _ h
      exact ⟨p1, cmd, src, dst, timeout, rfl, Or.inl ⟨e, p2, hq⟩⟩
    · obtain ⟨p1, p2⟩ := pos _ h
      exact ⟨p1, cmd, src, dst, timeout, rfl, Or.inl ⟨_, p2, hq⟩⟩
    · obtain ⟨p1, p2⟩ := pos _ h
      exact ⟨p1, cmd, src, dst, timeout, rfl, Or.inr ⟨p2, hm, hq⟩⟩
  | connect => exact (same rfl).elim
  | tick => exact (same rfl).elim
  | packet b =>
    refine (same ?_).elim
    rcases onPacket_cases s b with ⟨h, -⟩ | ⟨p, v, j, u, x, d, -, -, -, -, -, -, -, -, -, h⟩ | ⟨p, v, j, u, -, -, -, -, -, -, -, h⟩
    · simp only [step, h]
    · simp only [step, h, List.length_set]
    · simp only [step, h, List.length_set]
  | timer j =>
    refine (same ?_).elim
    simp only [step]; split; · rfl
    split <;> simp
  | resume j =>
    refine (same ?_).elim
    simp only [step]; split; · rfl
    split
    · split <;> simp
    · split <;> simp
  | cancelled j =>
    refine (same ?_).elim
    simp only [step]; split; · rfl
    split
    · split <;> simp
    · rfl
  | kill j =>
    refine (same ?_).elim
    simp only [step]; split; · rfl
    split <;> simp
  | fire k =>
    refine (same ?_).elim
    simp only [step]; split; · rfl
    split
    · rw [(keepAlive_sends _ _).1]
    · rfl
  | waiter o => exact (same (by cases o <;> rfl)).elim

theorem step_back (s : State) (op : Op) (i : Nat) (t' : Send) (ht : (step s op).sends[i]? = some t') :
    (s.sends[i]? = none ∧ i = s.sends.length) ∨ ∃ t, s.sends[i]? = some t ∧ Trans s i t op t' := by
  cases h : s.sends[i]? with
  | none => exact Or.inl ⟨rfl, (step_new s op i t' h ht).1⟩
  | some t =>
    obtain ⟨u, h1, h2⟩ := step_send s op i t h
    rw [ht] at h1; cases h1
    exact Or.inr ⟨t, rfl, h2⟩

/-- Entries of the queue are old or come from a call of `send`. -/
theorem step_queue (s : State) (op : Op) (v : Int) (i : Nat) (h : (step s op).ackQueue.get? v = some i) :
    s.ackQueue.get? v = some i ∨ (i = s.sends.length ∧ v = (((s.seq + 1) % 256 : Nat) : Int) ∧ ∃ cmd src dst timeout, op = .send cmd src dst timeout ∧
      (step s op).sends[i]? = some ⟨(s.seq + 1) % 256, .waiting, .pending, 0, false, s.now + timeout⟩) := by
  cases op with
  | send cmd src dst timeout =>
    rcases send_cases s cmd src dst timeout with ⟨e, -, hq, hs⟩ | ⟨b, -, -, hq, hs⟩ | ⟨b, -, hm, hq, hs⟩
    · left; rw [show step s (.send cmd src dst timeout) = send s cmd src dst timeout from rfl, hq] at h; exact h
    · left; rw [show step s (.send cmd src dst timeout) = send s cmd src dst timeout from rfl, hq] at h; exact h
    · rw [show step s (.send cmd src dst timeout) = send s cmd src dst timeout from rfl, hq, Dict.get?_set] at h
      split at h
      · rename_i he
        right
        cases h
        refine ⟨rfl, he.symm, cmd, src, dst, timeout, rfl, ?_⟩
        simp only [step, hs]
        simp
      · left; exact h
  | connect => exact Or.inl h
  | tick => exact Or.inl h
  | packet b =>
    left
    rcases onPacket_cases s b with ⟨-, hq, -⟩ | ⟨p, q, j, u, x, d, -, -, -, -, -, -, -, -, -, hs⟩ | ⟨p, q, j, u, -, -, -, -, -, -, -, hs⟩
    · simp only [step, hq] at h; exact h
    · simp only [step, hs] at h; exact h
    · simp only [step, hs] at h
      exact (Dict.get?_erase_some h).2
  | timer j =>
    left
    simp only [step] at h; split at h; · exact h
    split at h <;> exact h
  | resume j =>
    left
    simp only [step] at h; split at h; · exact h
    split at h
    · split at h <;> exact h
    · split at h <;> exact h
  | cancelled j =>
    left
    simp only [step] at h; split at h; · exact h
    split at h
    · split at h
      · exact (Dict.get?_erase_some h).2
      · exact h
    · exact h
  | kill j =>
    left
    simp only [step] at h; split at h; · exact h
    split at h <;> exact h
  | fire k =>
    left
    simp only [step] at h; split at h; · exact h
    split at h
    · rw [(keepAlive_sends _ _).2.1] at h; exact h
    · exact h
  | waiter o => left; cases o <;> exact h

theorem step_seq (s : State) (op : Op) : (step s op).seq = s.seq ∧ (step s op).sends.length = s.sends.length ∨
    (step s op).seq = (s.seq + 1) % 256 ∧ (step s op).sends.length = s.sends.length + 1 := by
  cases op with
  | send cmd src dst timeout =>
    right
    refine ⟨(send_frame s cmd src dst timeout).1, ?_⟩
    rcases send_cases s cmd src dst timeout with ⟨e, -, -, h⟩ | ⟨b, -, -, -, h⟩ | ⟨b, -, -, -, h⟩
    all_goals simp only [step, h]; simp
  | connect => left; exact ⟨rfl, rfl⟩
  | tick => left; exact ⟨rfl, rfl⟩
  | packet b =>
    left
    rcases onPacket_cases s b with ⟨h, -, h', -⟩ | ⟨p, v, j, u, x, d, -, -, -, -, -, -, -, -, -, h⟩ | ⟨p, v, j, u, -, -, -, -, -, -, -, h⟩
    · simp only [step, h, h', and_self]
    · simp only [step, h, List.length_set, and_self]
    · simp only [step, h, List.length_set, and_self]
  | timer j =>
    left
    simp only [step]; split; · exact ⟨rfl, rfl⟩
    split <;> simp
  | resume j =>
    left
    simp only [step]; split; · exact ⟨rfl, rfl⟩
    split
    · split <;> simp
    · split <;> simp
  | cancelled j =>
    left
    simp only [step]; split; · exact ⟨rfl, rfl⟩
    split
    · split <;> simp
    · exact ⟨rfl, rfl⟩
  | kill j =>
    left
    simp only [step]; split; · exact ⟨rfl, rfl⟩
    split <;> simp
  | fire k =>
    left
    simp only [step]; split; · exact ⟨rfl, rfl⟩
    split
    · rw [(keepAlive_sends _ _).1, (keepAlive_sends _ _).2.2.1]; exact ⟨rfl, rfl⟩
    · exact ⟨rfl, rfl⟩
  | waiter o => left; cases o <;> exact ⟨rfl, rfl⟩

theorem step_now (s : State) (op : Op) : s.now ≤ (step s op).now := by
  cases op with
  | send cmd src dst timeout => simp only [step, State.now, (send_frame s cmd src dst timeout).2]; exact Nat.le_refl _
  | connect => exact Nat.le_refl _
  | tick => simp [step, State.now, Waiter.step]
  | packet b =>
    rcases onPacket_cases s b with ⟨-, -, -, h, -⟩ | ⟨p, v, j, u, x, d, -, -, -, -, -, -, -, -, -, h⟩ | ⟨p, v, j, u, -, -, -, -, -, -, -, h⟩
    · simp only [step, State.now, h]; exact Nat.le_refl _
    · simp only [step, State.now, h]; exact Nat.le_refl _
    · simp only [step, State.now, h]; exact Nat.le_refl _
  | timer j =>
    simp only [step]; split; · exact Nat.le_refl _
    split <;> exact Nat.le_refl _
  | resume j =>
    simp only [step]; split; · exact Nat.le_refl _
    split
    · split <;> exact Nat.le_refl _
    · split <;> exact Nat.le_refl _
  | cancelled j =>
    simp only [step]; split; · exact Nat.le_refl _
    split
    · split <;> exact Nat.le_refl _
    · exact Nat.le_refl _
  | kill j =>
    simp only [step]; split; · exact Nat.le_refl _
    split <;> exact Nat.le_refl _
  | fire k =>
    simp only [step]; split; · exact Nat.le_refl _
    split
    · simp only [State.now, (keepAlive_sends _ _).2.2.2]; exact Nat.le_refl _
    · exact Nat.le_refl _
  | waiter o => cases o <;> first | exact Nat.le_refl _ | exact Waiter.step_now _ _

theorem run_cons (s : State) (op : Op) (ops : List Op) : run s (op :: ops) = run (step s op) ops := rfl

theorem run_append (s : State) (a b : List Op) : run s (a ++ b) = run (run s a) b := List.foldl_append

theorem run_snoc (s : State) (a : List Op) (op : Op) : run s (a ++ [op]) = step (run s a) op := by rw [run_append]; rfl

theorem run_now (ops : List Op) : ∀ s, s.now ≤ (run s ops).now := by
  induction ops with
  | nil => intro s; exact Nat.le_refl _
  | cons op ops ih => intro s; exact Nat.le_trans (step_now s op) (ih _)

/-! ## Invariant -/

/-- A call of `send` that is still suspended. -/
def Send.open (t : Send) : Prop := ∀ r, t.pc ≠ .done r

structure Inv (s : State) : Prop where
  own : ∀ (v : Int) (i : Nat), s.ackQueue.get? v = some i → ∃ t, s.sends[i]? = some t ∧ (t.seq : Int) = v ∧ t.status ≠ .received ∧
    (t.open ∨ t.pc = .done (.error .cancelled))
  seqs : ∀ (k : Nat) (t : Send), s.sends[k]? = some t → t.seq = (k + 1) % 256
  last : s.seq = s.sends.length % 256
  sends : ∀ (k : Nat) (t : Send), s.sends[k]? = some t → (t.inner = true → t.status ≠ .pending) ∧ (t.pc = .timedOut ∨ t.pc = .cancelling → t.deadline ≤ s.now) ∧
    (t.pc = .cancelling → t.inner = false) ∧ (t.pc = .waiting → t.status = .received → t.inner = true) ∧ (t.status = .queued → 60 ≤ t.delay)

theorem inv_init : Inv init := by
  constructor <;> intros <;> simp_all [init]

theorem Inv.step {s : State} (h : Inv s) (op : Op) : Inv (step s op) where
  own := by
    intro v i hv
    rcases step_queue s op v i hv with ho | ⟨hi, hq, cmd, src, dst, timeout, rfl, hs⟩
    · obtain ⟨t, h1, h2, h3, h4⟩ := h.own v i ho
      obtain ⟨t', h1', tr⟩ := step_send s op i t h1
      refine ⟨t', h1', ?_⟩
      cases tr with
      | same => exact ⟨h2, h3, h4⟩
      | queued b q d p x => exact ⟨h2, by simp [Send.queued], h4⟩
      | received b q p a1 a2 a3 a4 a5 a6 a7 =>
        exfalso
        obtain ⟨u, b1, b2, -⟩ := h.own q i a6
        rw [h1] at b1; cases b1
        rw [a7, ← b2, h2, Dict.get?_erase_self] at hv
        cases hv
      | timer => exact ⟨h2, h3, Or.inl (by intro r; simp)⟩
      | rearm => exact ⟨h2, h3, Or.inl (by intro r; simp)⟩
      | success a1 a2 a3 =>
        exfalso
        have := (h.sends i t h1).1 a1
        cases hst : t.status <;> simp_all
      | giveUp => exact ⟨h2, h3, Or.inl (by intro r; simp)⟩
      | failed a1 a2 a3 =>
        exfalso
        rw [a3, h2, Dict.get?_erase_self] at hv
        cases hv
      | raised a1 a2 =>
        exfalso
        simp [Dict.mem, h2, ho] at a2
      | killed => exact ⟨h2, h3, Or.inr rfl⟩
    · exact ⟨_, hs, hq.symm, by simp, Or.inl (by intro r; simp)⟩
  seqs := by
    intro k t ht
    cases hk : s.sends[k]? with
    | none =>
      obtain ⟨h1, cmd, src, dst, timeout, -, h2⟩ := step_new s op k t hk ht
      have : t.seq = (s.seq + 1) % 256 := by
        rcases h2 with ⟨e, h2, -⟩ | ⟨h2, -⟩ <;> rw [h2]
      rw [this, h.last, h1]
      omega
    | some u =>
      obtain ⟨t', h1, tr⟩ := step_send s op k u hk
      rw [ht] at h1; cases h1
      have := h.seqs k u hk
      cases tr <;> exact this
  last := by
    have := h.last
    rcases step_seq s op with ⟨a, b⟩ | ⟨a, b⟩
    · rw [a, b]; exact this
    · rw [a, b, this]; omega
  sends := by
    intro k t ht
    have hn := step_now s op
    cases hk : s.sends[k]? with
    | none =>
      obtain ⟨h1, cmd, src, dst, timeout, -, h2⟩ := step_new s op k t hk ht
      rcases h2 with ⟨e, h2, -⟩ | ⟨h2, -⟩ <;> subst h2 <;> simp
    | some u =>
      obtain ⟨t', h1, tr⟩ := step_send s op k u hk
      rw [ht] at h1; cases h1
      obtain ⟨i1, i2, i3, i4, i5⟩ := h.sends k u hk
      cases tr with
      | same => exact ⟨i1, fun h => Nat.le_trans (i2 h) hn, i3, i4, i5⟩
      | queued b q d p x =>
        refine ⟨by simp [Send.queued], fun h => Nat.le_trans (i2 h) hn, ?_, by simp [Send.queued], ?_⟩
        · intro hc
          have hc' : u.pc = .cancelling := hc
          simp [Send.queued, i3 hc', hc']
        · simp only [Send.queued]
          intro _
          split <;> omega
      | received b q p =>
        refine ⟨by simp [Send.received], fun h => Nat.le_trans (i2 h) hn, ?_, ?_, by simp [Send.received]⟩
        · intro hc
          have hc' : u.pc = .cancelling := hc
          simp [Send.received, i3 hc', hc']
        · intro hc _
          have hc' : u.pc = .waiting := hc
          simp [Send.received, hc']
      | timer a1 a2 => exact ⟨i1, fun _ => Nat.le_trans a2 hn, by simp, by simp, i5⟩
      | rearm a1 a2 a3 => exact ⟨by simp, by simp, by simp, by simp [a3], i5⟩
      | success => exact ⟨i1, by simp, by simp, by simp, i5⟩
      | giveUp a1 a2 => exact ⟨i1, fun _ => Nat.le_trans (i2 (Or.inl a2)) hn, fun _ => a1, by simp, i5⟩
      | failed => exact ⟨i1, by simp, by simp, by simp, i5⟩
      | raised => exact ⟨i1, by simp, by simp, by simp, i5⟩
      | killed => exact ⟨i1, by simp, by simp, by simp, i5⟩

theorem Inv.run (ops : List Op) : ∀ {s : State}, Inv s → Inv (run s ops) := by
  induction ops with
  | nil => intro s h; exact h
  | cons op ops ih => intro s h; exact ih (h.step op)

theorem inv_run (ops : List Op) : Inv (run init ops) := inv_init.run ops

/-! ## Success only after an acknowledgement -/

/-- Somewhere in the schedule `ops` an acknowledgement for call `i` arrived while it was waiting. -/
def Acked (ops : List Op) (i q : Nat) : Prop :=
  ∃ a b c u, ops = a ++ .packet b :: c ∧ AckFor b q ∧ (run init a).sends[i]? = some u ∧ (u.pc = .waiting ∨ u.pc = .timedOut ∧ u.status = .queued)

theorem Acked.snoc {ops : List Op} {i q : Nat} (h : Acked ops i q) (op : Op) : Acked (ops ++ [op]) i q := by
  obtain ⟨a, b, c, u, rfl, h⟩ := h
  exact ⟨a, b, c ++ [op], u, by simp, h⟩

theorem acked_of_received : ∀ (ops : List Op) (i : Nat) (t : Send), (run init ops).sends[i]? = some t → t.status = .received →
    (t.pc = .waiting ∨ t.pc = .timedOut ∧ t.inner = true ∨ t.pc = .done (.ok true)) → Acked ops i t.seq := by
  intro ops
  induction ops using snoc_ind with
  | nil => intro i t ht; simp [run, init] at ht
  | snoc ops op ih =>
    intro i t' ht' hs hp
    rw [run_snoc] at ht'
    have hinv := inv_run ops
    rcases step_back _ _ _ _ ht' with ⟨hn, -⟩ | ⟨t, ht, tr⟩
    · obtain ⟨-, cmd, src, dst, timeout, -, h⟩ := step_new _ _ _ _ hn ht'
      rcases h with ⟨e, h, -⟩ | ⟨h, -⟩ <;> subst h <;> simp at hs
    · cases tr with
      | same => exact (ih i _ ht hs hp).snoc _
      | queued b q d p x => simp [Send.queued] at hs
      | received b q p a1 a2 a3 a4 a5 a6 a7 =>
        obtain ⟨u, b1, b2, b3, b4⟩ := hinv.own q i a6
        rw [ht] at b1; cases b1
        refine ⟨ops, b, [], t, by simp, ⟨p, a1, a2, a3, a4, by rw [a5, ← b2]; rfl⟩, ht, ?_⟩
        rcases hp with hp | ⟨hp, hi⟩ | hp
        · exact Or.inl hp
        · have hp' : t.pc = .timedOut := hp
          have hi' : t.inner = true := by simpa [Send.received, hp'] using hi
          have := (hinv.sends i t ht).1 hi'
          refine Or.inr ⟨hp', ?_⟩
          cases hst : t.status <;> simp_all
        · have hp' : t.pc = .done (.ok true) := hp
          rcases b4 with b4 | b4
          · exact absurd hp' (b4 _)
          · rw [hp'] at b4; cases b4
      | timer a1 a2 =>
        exact (ih i t ht hs (Or.inl a1)).snoc _
      | rearm a1 a2 a3 => rw [show t.status = .received from hs] at a3; cases a3
      | success a1 a2 a3 =>
        refine (ih i t ht hs ?_).snoc _
        rcases a2 with a2 | a2
        · exact Or.inl a2
        · exact Or.inr (Or.inl ⟨a2, a1⟩)
      | giveUp => simp at hp
      | failed => simp at hp
      | raised => simp at hp
      | killed => simp at hp

theorem received_of_true : ∀ (ops : List Op) (i : Nat) (t : Send), (run init ops).sends[i]? = some t → t.pc = .done (.ok true) → t.status = .received := by
  intro ops
  induction ops using snoc_ind with
  | nil => intro i t ht; simp [run, init] at ht
  | snoc ops op ih =>
    intro i t' ht' hp
    rw [run_snoc] at ht'
    have hinv := inv_run ops
    rcases step_back _ _ _ _ ht' with ⟨hn, -⟩ | ⟨t, ht, tr⟩
    · obtain ⟨-, cmd, src, dst, timeout, -, h⟩ := step_new _ _ _ _ hn ht'
      rcases h with ⟨e, h, -⟩ | ⟨h, -⟩ <;> subst h <;> simp at hp
    · cases tr with
      | same => exact ih i _ ht hp
      | queued b q d p x a1 a2 a3 a4 a5 a6 a7 a8 =>
        have hp' : t.pc = .done (.ok true) := hp
        obtain ⟨u, b1, b2, b3, b4⟩ := hinv.own q i a8
        rw [ht] at b1; cases b1
        rcases b4 with b4 | b4
        · exact absurd hp' (b4 _)
        · rw [hp'] at b4; cases b4
      | received b q p => rfl
      | timer => simp at hp
      | rearm => simp at hp
      | success a1 a2 a3 =>
        have := (hinv.sends i t ht).1 a1
        show t.status = .received
        cases hst : t.status <;> simp_all
      | giveUp => simp at hp
      | failed => simp at hp
      | raised => simp at hp
      | killed => simp at hp

/-! ## An acknowledgement leads to success -/

/-- Call `i` has been acknowledged in time. -/
def Good (s : State) (i : Nat) : Prop :=
  ∃ t, s.sends[i]? = some t ∧ (t.status = .received ∧ t.inner = true ∧ (t.pc = .waiting ∨ t.pc = .timedOut) ∨ t.pc = .done (.ok true))

theorem Good.step {s : State} {i : Nat} (hi : Inv s) (h : Good s i) {op : Op} (hk : op ≠ .kill i) : Good (step s op) i := by
  obtain ⟨t, ht, hg⟩ := h
  obtain ⟨t', ht', tr⟩ := step_send s op i t ht
  refine ⟨t', ht', ?_⟩
  cases tr with
  | same => exact hg
  | queued b q d p x a1 a2 a3 a4 a5 a6 a7 a8 =>
    obtain ⟨u, b1, b2, b3, b4⟩ := hi.own q i a8
    rw [ht] at b1; cases b1
    rcases hg with ⟨h, -⟩ | h
    · exact absurd h b3
    · rcases b4 with b4 | b4
      · exact absurd h (b4 _)
      · rw [h] at b4; cases b4
  | received b q p a1 a2 a3 a4 a5 a6 a7 =>
    obtain ⟨u, b1, b2, b3, b4⟩ := hi.own q i a6
    rw [ht] at b1; cases b1
    rcases hg with ⟨h, -⟩ | h
    · exact absurd h b3
    · rcases b4 with b4 | b4
      · exact absurd h (b4 _)
      · rw [h] at b4; cases b4
  | timer a1 a2 =>
    rcases hg with ⟨h1, h2, -⟩ | h
    · exact Or.inl ⟨h1, h2, Or.inr rfl⟩
    · rw [h] at a1; cases a1
  | rearm a1 a2 a3 =>
    rcases hg with ⟨h1, -⟩ | h
    · rw [h1] at a3; cases a3
    · rw [h] at a2; simp at a2
  | success => exact Or.inr rfl
  | giveUp a1 a2 =>
    rcases hg with ⟨-, h2, -⟩ | h
    · rw [h2] at a1; cases a1
    · rw [h] at a2; cases a2
  | failed a1 =>
    rcases hg with ⟨-, -, h | h⟩ | h <;> rw [h] at a1 <;> cases a1
  | raised a1 =>
    rcases hg with ⟨-, -, h | h⟩ | h <;> rw [h] at a1 <;> cases a1
  | killed => exact absurd rfl hk

theorem Good.run (ops : List Op) : ∀ {s : State} {i : Nat}, Inv s → Good s i → .kill i ∉ ops → Good (run s ops) i := by
  induction ops with
  | nil => intro s i _ h _; exact h
  | cons op ops ih =>
    intro s i hi h hk
    simp only [List.mem_cons, not_or] at hk
    exact ih (hi.step op) (h.step hi (fun e => hk.1 e.symm)) hk.2

theorem Good.resume {s : State} {i : Nat} (h : Good s i) : ∃ t, (Conn.step s (.resume i)).sends[i]? = some t ∧ t.pc = .done (.ok true) := by
  obtain ⟨t, ht, hg⟩ := h
  rcases hg with ⟨h1, h2, h3⟩ | h
  · refine ⟨{ t with pc := .done (.ok true) }, ?_, rfl⟩
    simp only [Conn.step, ht, if_pos (show t.inner = true ∧ (t.pc = .waiting ∨ t.pc = .timedOut) from ⟨h2, h3⟩),
      if_neg (show ¬ t.status = .queued by rw [h1]; simp)]
    exact getElem?_set_some ht
  · refine ⟨t, ?_, h⟩
    simp only [Conn.step, ht]
    rw [if_neg (by rw [h]; simp), if_neg (by rw [h]; simp)]
    exact ht

theorem onPacket_ack {s : State} {b : Bytes} {q i : Nat} {t : Send} (ha : AckFor b q) (hq : s.ackQueue.get? (q : Int) = some i) (ht : s.sends[i]? = some t) :
    step s (.packet b) = { s with ackQueue := s.ackQueue.erase (q : Int), sends := s.sends.set i t.received } ∧ (onPacket s b).2 = .ok true := by
  obtain ⟨p, h1, h2, h3, h4, h5⟩ := ha
  have : onPacket s b = ({ s with ackQueue := s.ackQueue.erase (q : Int), sends := s.sends.set i t.received }, .ok true) := by
    simp only [onPacket, h1, h2, h3, if_true, ackReceived, if_neg h4, h5, hq, ht]
  simp only [Conn.step, this, and_self]

theorem onPacket_waiting {s : State} {b : Bytes} {q i : Nat} {d : Int} {t : Send} (ha : WaitingFor b q d) (hq : s.ackQueue.get? (q : Int) = some i)
    (ht : s.sends[i]? = some t) :
    step s (.packet b) = { s with sends := s.sends.set i (t.queued d) } ∧ (onPacket s b).2 = .ok true := by
  obtain ⟨p, x, h1, h2, h3, h4, h5, h6, h7⟩ := ha
  have hr : ackReceived s p = ({ s with sends := s.sends.set i (t.queued d) }, .ok true) := by
    simp only [ackReceived, h3, h4, and_self, if_true, lookup, h5, hq, ht, h6, h7]
  have : onPacket s b = ({ s with sends := s.sends.set i (t.queued d) }, .ok true) := by
    simp only [onPacket, h1, h2, h3, h4, if_true, hr, ite_self]
  simp only [Conn.step, this, and_self]

/-- An entry of the queue stays unless it is acknowledged or a call with the same number gives up. -/
theorem step_queue_fwd (s : State) (op : Op) (v : Int) (i : Nat) (h : s.ackQueue.get? v = some i) :
    (step s op).ackQueue.get? v = some i ∨ (∃ b p, op = .packet b ∧ decode b = .ok p ∧ p.num? "seqNo" = some v ∧
      ∀ t, s.sends[i]? = some t → (step s op).sends[i]? = some t.received) ∨
    (∃ j u, op = .cancelled j ∧ s.sends[j]? = some u ∧ u.pc = .cancelling ∧ (u.seq : Int) = v) := by
  cases op with
  | send cmd src dst timeout =>
    left
    rw [show step s (.send cmd src dst timeout) = send s cmd src dst timeout from rfl]
    rcases send_cases s cmd src dst timeout with ⟨e, -, hq, -⟩ | ⟨b, -, -, hq, -⟩ | ⟨b, -, hm, hq, -⟩
    · rw [hq]; exact h
    · rw [hq]; exact h
    · rw [hq, Dict.get?_set, if_neg]
      · exact h
      · intro e
        rw [e] at hm
        simp [Dict.mem, h] at hm
  | connect => exact Or.inl h
  | tick => exact Or.inl h
  | packet b =>
    rcases onPacket_cases s b with ⟨-, hq, -⟩ | ⟨p, q, j, u, x, d, -, -, -, -, -, -, -, -, -, hs⟩ | ⟨p, q, j, u, h1, -, -, -, h5, h6, h7, hs⟩
    · left; simp only [step, hq]; exact h
    · left; simp only [step, hs]; exact h
    · by_cases e : q = v
      · subst e
        rw [h] at h6; cases h6
        refine Or.inr (Or.inl ⟨b, p, rfl, h1, h5, ?_⟩)
        intro t ht
        rw [ht] at h7; cases h7
        simp only [step, hs]
        exact getElem?_set_some ht
      · left
        simp only [step, hs]
        rw [Dict.get?_erase, if_neg e]
        exact h
  | timer j =>
    left
    simp only [step]; split; · exact h
    split <;> exact h
  | resume j =>
    left
    simp only [step]; split; · exact h
    split
    · split <;> exact h
    · split <;> exact h
  | cancelled j =>
    cases hj : s.sends[j]? with
    | none => left; simp only [step, hj]; exact h
    | some u =>
      by_cases hc : u.pc = .cancelling
      · by_cases he : (u.seq : Int) = v
        · exact Or.inr (Or.inr ⟨j, u, rfl, hj, hc, he⟩)
        · left
          simp only [step, hj, if_pos hc]
          split
          · rw [Dict.get?_erase, if_neg he]; exact h
          · exact h
      · left; simp only [step, hj, if_neg hc]; exact h
  | kill j =>
    left
    simp only [step]; split; · exact h
    split <;> exact h
  | fire k =>
    left
    simp only [step]; split; · exact h
    split
    · rw [(keepAlive_sends _ _).2.1]; exact h
    · exact h
  | waiter o => left; cases o <;> exact h

/-- As long as call `i` waits for an acknowledgement it is registered, and every other call with its number has ended. -/
def Mine (s : State) (i : Nat) : Prop :=
  ∃ t, s.sends[i]? = some t ∧ (t.open → t.status ≠ .received → s.ackQueue.get? (t.seq : Int) = some i ∧
    ∀ (j : Nat) (u : Send), j ≠ i → s.sends[j]? = some u → u.seq = t.seq → ∃ r, u.pc = .done r)

theorem Mine.step {s : State} {i : Nat} (hi : Inv s) (h : Mine s i) (op : Op) : Mine (step s op) i := by
  obtain ⟨t, ht, hm⟩ := h
  obtain ⟨t', ht', tr⟩ := step_send s op i t ht
  refine ⟨t', ht', ?_⟩
  intro ho hs
  have hseq : t'.seq = t.seq := by cases tr <;> rfl
  have hto : t.open ∧ t.status ≠ .received := by
    cases tr with
    | same => exact ⟨ho, hs⟩
    | queued b q d p x a1 a2 a3 a4 a5 a6 a7 a8 =>
      obtain ⟨u, b1, b2, b3, b4⟩ := hi.own q i a8
      rw [ht] at b1; cases b1
      exact ⟨ho, b3⟩
    | received => exact absurd rfl hs
    | timer a1 => exact ⟨fun r h => by (rw [h] at a1; cases a1), hs⟩
    | rearm a1 a2 => exact ⟨fun r h => by (rw [h] at a2; simp at a2), hs⟩
    | success => exact absurd rfl (ho _)
    | giveUp a1 a2 => exact ⟨fun r h => by (rw [h] at a2; cases a2), hs⟩
    | failed => exact absurd rfl (ho _)
    | raised => exact absurd rfl (ho _)
    | killed => exact absurd rfl (ho _)
  obtain ⟨hreg, hoth⟩ := hm hto.1 hto.2
  rw [hseq]
  refine ⟨?_, ?_⟩
  · rcases step_queue_fwd s op _ i hreg with h | ⟨b, p, rfl, -, -, h⟩ | ⟨j, u, rfl, hj, hc, he⟩
    · exact h
    · have := h t ht
      rw [ht'] at this; cases this
      exact absurd rfl hs
    · by_cases hji : j = i
      · subst hji
        rw [ht] at hj; cases hj
        exfalso
        have : (Conn.step s (.cancelled j)).sends[j]? = some { t with pc := .done (.ok false) } := by
          simp only [Conn.step, ht, if_pos hc]
          rw [if_pos (by simp [Dict.mem, hreg])]
          exact getElem?_set_some ht
        rw [ht'] at this
        cases this
        exact absurd rfl (ho _)
      · obtain ⟨r, hr⟩ := hoth j u hji hj (by omega)
        rw [hr] at hc; cases hc
  · intro j u hj hu he
    rcases step_back s op j u hu with ⟨hn, -⟩ | ⟨u0, hu0, tru⟩
    · obtain ⟨-, cmd, src, dst, timeout, -, h⟩ := step_new s op j u hn hu
      rcases h with ⟨e, h, -⟩ | ⟨h, hmem, -⟩
      · exact ⟨_, by rw [h]⟩
      · exfalso
        have : ((s.seq + 1) % 256) = t.seq := by rw [← he, h]
        rw [this] at hmem
        simp [Dict.mem, hreg] at hmem
    · have hu0s : u0.seq = t.seq := by rw [← he]; cases tru <;> rfl
      obtain ⟨r, hr⟩ := hoth j u0 hj hu0 hu0s
      cases tru with
      | same => exact ⟨r, hr⟩
      | queued => exact ⟨r, hr⟩
      | received => exact ⟨r, hr⟩
      | timer a1 => rw [hr] at a1; cases a1
      | rearm a1 a2 => rw [hr] at a2; simp at a2
      | success a1 a2 => rw [hr] at a2; simp at a2
      | giveUp a1 a2 => rw [hr] at a2; cases a2
      | failed a1 => rw [hr] at a1; cases a1
      | raised a1 => rw [hr] at a1; cases a1
      | killed a1 => exact absurd hr (a1 r)

theorem Mine.run (ops : List Op) : ∀ {s : State} {i : Nat}, Inv s → Mine s i → Mine (run s ops) i := by
  induction ops with
  | nil => intro s i _ h; exact h
  | cons op ops ih => intro s i hi h; exact ih (hi.step op) (h.step hi op)

/-- A new call whose number no unfinished call uses. -/
theorem Mine.send {s : State} (hi : Inv s) (cmd : Msg) (src dst : Int) (timeout : Nat)
    (hf : ∀ (j : Nat) (u : Send), s.sends[j]? = some u → u.seq = (s.sends.length + 1) % 256 → ∃ r, u.pc = .done r) :
    Mine (Conn.step s (.send cmd src dst timeout)) s.sends.length := by
  have hq : (s.seq + 1) % 256 = (s.sends.length + 1) % 256 := by rw [hi.last]; omega
  have old : ∀ (x : Send) (j : Nat) (u : Send), j ≠ s.sends.length → (s.sends ++ [x])[j]? = some u → s.sends[j]? = some u := by
    intro x j u hj hu
    have := lt_of_getElem? hu
    simp at this
    rw [List.getElem?_append_left (by omega)] at hu
    exact hu
  rcases send_cases s cmd src dst timeout with ⟨e, -, hqe, hs⟩ | ⟨b, -, -, hqe, hs⟩ | ⟨b, -, hm, hqe, hs⟩
  · refine ⟨_, by simp only [Conn.step, hs]; exact List.getElem?_concat_length, ?_⟩
    intro ho; exact absurd rfl (ho _)
  · refine ⟨_, by simp only [Conn.step, hs]; exact List.getElem?_concat_length, ?_⟩
    intro ho; exact absurd rfl (ho _)
  · refine ⟨_, by simp only [Conn.step, hs]; exact List.getElem?_concat_length, ?_⟩
    intro _ _
    refine ⟨by simp only [Conn.step, hqe]; rw [Dict.get?_set, if_pos rfl], ?_⟩
    intro j u hj hu he
    simp only [Conn.step, hs] at hu
    exact hf j u (old _ j u hj hu) (by rw [he, ← hq])

/-! ## Keep-alive timer -/

theorem keepAlivePacket_ok : keepAlivePacket = .ok [0x23, 0x03, 0x80] := by decide +kernel

/-- No timer before the first packet, one afterwards. -/
def OneTimer (s : State) : Prop := ∃ k due, s.timers = [(k, due)] ∧ s.keepAlive = some k ∧ k < s.nextTimer ∧ due ≤ s.now + 25

def NoTimer (s : State) : Prop := s.timers = [] ∧ s.keepAlive = none

theorem reset_timer {s : State} (h : OneTimer s ∨ s.timers = []) :
    ∃ k, (resetKeepAlive s).timers = [(k, s.now + 25)] ∧ (resetKeepAlive s).keepAlive = some k ∧ k < (resetKeepAlive s).nextTimer := by
  refine ⟨s.nextTimer, ?_, rfl, Nat.lt_succ_self _⟩
  rcases h with ⟨k, due, h1, h2, h3, -⟩ | h
  · simp [resetKeepAlive, h1, h2, Dict.erase, Dict.set]
  · cases hk : s.keepAlive <;> simp [resetKeepAlive, h, hk, Dict.erase, Dict.set]

theorem OneTimer.congr {s s' : State} (h : OneTimer s) (h1 : s'.timers = s.timers) (h2 : s'.keepAlive = s.keepAlive) (h3 : s'.nextTimer = s.nextTimer)
    (h4 : s.now ≤ s'.now) : OneTimer s' := by
  obtain ⟨k, due, a, b, c, d⟩ := h
  exact ⟨k, due, by rw [h1, a], by rw [h2, b], by rw [h3]; exact c, by omega⟩

end Model.Conn

import Verif.Props.Conn
import Verif.Lemmas.ToNode
/-!
# C165, C166, C167: a send that takes long, and one that is cancelled

A command for a sleeping node may be outstanding for a week; its number stays registered. Numbers are given out again after 256 sends.
The number of a send that was cancelled stays registered as well (adapter.py:234-237 catches only timeouts); the mailbox cancels sends of heartbeats (mailbox.py:48-51).
-/
namespace Props.Sleeping
open Spec Model Model.Conn

/-- How many sends have not ended. -/
def outstanding (s : State) : Nat := (s.sends.filter fun t => match t.pc with | .done _ => false | _ => true).length

/-! ## C165 -/

/-- The full property: if nothing is cancelled and fewer than 256 sends are outstanding, then a command that can be composed is not refused. -/
def C165_statement : Prop := ∀ (ops : List Op) (cmd : Msg) (src dst : Int) (timeout : Nat) (b : Bytes), (∀ i, .kill i ∉ ops) → outstanding (run init ops) < 256 →
  (packetFor (((run init ops).sends.length + 1) % 256) src dst cmd).bind compose = .ok b →
  ¬ ∃ e, SendEnded (step (run init ops) (.send cmd src dst timeout)) (run init ops).sends.length (.error e)

/-- The datagram that acknowledges number `q`. -/
def ack (q : Nat) : Bytes := ZipHeader.bytes { ackResponse := true, seq := q, src := 0, dst := 0 } ++ []

theorem ackFor (q : Nat) (h : q < 256) : AckFor (ack q) q := by
  obtain ⟨m, hm⟩ : ∃ m, decode (ack q) = .ok m := by
    refine ⟨?_, ?_⟩
    rotate_left
    · simp only [ack, ZipHeader.bytes, List.cons_append, List.nil_append]
      rw [zip_decode]
      rfl
  exact ackFor_wire { ackResponse := true, seq := q, src := 0, dst := 0 } ⟨h, by show 0 < 128; omega, by show 0 < 128; omega⟩ rfl rfl [] m hm

theorem ackFor_unique {b : Bytes} {q q' : Nat} (h : AckFor b q) (h' : AckFor b q') : q = q' := by
  obtain ⟨p, h1, -, -, -, h5⟩ := h
  obtain ⟨p', h1', -, -, -, h5'⟩ := h'
  rw [h1] at h1'
  cases h1'
  rw [h5] at h5'
  injection h5' with h5'
  exact Int.ofNat.inj h5'

/-- The gateway says that packet 1 waits for a node that sleeps. -/
def asleep : Bytes := [0x23, 0x02, 0x30, 0x90, 0x01, 0x00, 0x00, 0x06, 0x01, 0x03, 0x00, 0x00, 0x05]

/-- A command for a sleeping node. -/
def first : List Op := [.send .pure 0 0 3, .packet asleep, .resume 0]

/-- Send `n`, which is acknowledged at once. -/
def round (n : Nat) : List Op := [.send .pure 0 0 3, .packet (ack ((n + 1) % 256)), .resume n]

/-- Sends 1 to `n`. -/
def rounds : Nat → List Op
  | 0 => []
  | n + 1 => rounds n ++ round (n + 1)

/-- The send waits. -/
def Waits (t : Send) : Prop := t.pc = .waiting

/-- Of `n` sends the first one, with `P`, is registered, and the others have ended. -/
structure W (P : Send → Prop) (s : State) (n : Nat) : Prop where
  queue : s.ackQueue = [(1, 0)]
  len : s.sends.length = n
  seq : s.seq = n % 256
  zero : ∃ t, s.sends[0]? = some t ∧ P t
  rest : ∀ j t, 0 < j → s.sends[j]? = some t → ∃ r, t.pc = .done r

theorem w_first : W Waits (run init first) 1 := by
  have h : (run init first).ackQueue = [(1, 0)] ∧ (run init first).seq = 1 ∧ (run init first).sends = [⟨1, .waiting, .queued, 65, false, 65⟩] := by decide +kernel
  obtain ⟨h1, h2, h3⟩ := h
  refine ⟨h1, by rw [h3]; rfl, h2, ⟨⟨1, .waiting, .queued, 65, false, 65⟩, by rw [h3]; rfl, rfl⟩, fun j t hj ht => ?_⟩
  rw [h3] at ht
  cases j with
  | zero => omega
  | succ j => simp at ht

theorem w_round {s : State} {n : Nat} {P : Send → Prop} (h : W P s n) (h1 : 1 ≤ n) (h2 : n % 256 ≠ 0) : W P (run s (round n)) (n + 1) := by
  have hq : (s.seq + 1) % 256 = (n + 1) % 256 := by rw [h.seq]; omega
  obtain ⟨b, hb⟩ := pure_packet ((n + 1) % 256) (by omega)
  have hne : (((n + 1) % 256 : Nat) : Int) ≠ 1 := by omega
  have hmem : s.ackQueue.mem (((s.seq + 1) % 256 : Nat) : Int) = false := by
    rw [hq, h.queue]
    generalize (((n + 1) % 256 : Nat) : Int) = k at hne
    simp [Dict.mem, Dict.get?, hne.symm]
  rcases send_cases s .pure 0 0 3 with ⟨e, he, -⟩ | ⟨_, -, hm, -⟩ | ⟨_, -, -, g1, g2⟩
  · rw [hq, hb] at he; cases he
  · rw [hmem] at hm; cases hm
  · have g3 := (send_frame s .pure 0 0 3).1
    rw [hq] at g1 g2 g3
    rw [h.len] at g1
    generalize hs1 : send s .pure 0 0 3 = s1 at g1 g2 g3
    have hset : s.ackQueue.set (((n + 1) % 256 : Nat) : Int) n = [(1, 0), ((((n + 1) % 256 : Nat) : Int), n)] := by
      rw [set_new (by rw [← hq]; exact hmem), h.queue]; rfl
    rw [hset] at g1
    have hget : s1.ackQueue.get? (((n + 1) % 256 : Nat) : Int) = some n := by
      rw [g1]
      generalize (((n + 1) % 256 : Nat) : Int) = k at hne
      simp [Dict.get?, hne.symm]
    have hsn : s1.sends[n]? = some ⟨(n + 1) % 256, .waiting, .pending, 0, false, s.now + 3⟩ := by
      rw [g2, ← h.len]; exact List.getElem?_concat_length
    have hp := (onPacket_ack (ackFor ((n + 1) % 256) (by omega)) hget hsn).1
    have hrun : run s (round n) = step (step s1 (.packet (ack ((n + 1) % 256)))) (.resume n) := by
      rw [← hs1]; rfl
    rw [hrun, hp]
    have hs2 : (s1.sends.set n (Send.received ⟨(n + 1) % 256, .waiting, .pending, 0, false, s.now + 3⟩))[n]? =
        some ⟨(n + 1) % 256, .waiting, .received, 0, true, s.now + 3⟩ := by
      rw [List.getElem?_set_self (by rw [g2]; simp [h.len])]; rfl
    simp only [Conn.step, hs2]
    refine ⟨?_, ?_, ?_, ?_, ?_⟩
    · simp only [and_self, true_or, if_true, reduceCtorEq, if_false]
      rw [g1]
      generalize (((n + 1) % 256 : Nat) : Int) = k at hne
      simp [Dict.erase, hne.symm]
    · simp [g2, h.len]
    · simp [g3]
    · obtain ⟨t, e1, e2⟩ := h.zero
      refine ⟨t, ?_, e2⟩
      simp only [and_self, true_or, if_true, reduceCtorEq, if_false]
      rw [List.getElem?_set_ne (by omega), List.getElem?_set_ne (by omega), g2, List.getElem?_append_left (by rw [h.len]; omega)]
      exact e1
    · intro j t hj ht
      simp only [and_self, true_or, if_true, reduceCtorEq, if_false] at ht
      by_cases e : j = n
      · subst e
        rw [List.getElem?_set_self (by rw [List.length_set, g2]; simp [h.len])] at ht
        cases ht
        exact ⟨_, rfl⟩
      · rw [List.getElem?_set_ne (by omega), List.getElem?_set_ne (by omega), g2] at ht
        by_cases hl : j < s.sends.length
        · rw [List.getElem?_append_left hl] at ht
          exact h.rest j t hj ht
        · rw [List.getElem?_append_right (by omega), h.len] at ht
          have : 0 < j - n := by rw [h.len] at hl; omega
          cases hk : j - n with
          | zero => omega
          | succ k => rw [hk] at ht; simp at ht

theorem w_rounds (n : Nat) (h : n ≤ 255) : W Waits (run init (first ++ rounds n)) (n + 1) := by
  induction n with
  | zero => rw [rounds, List.append_nil]; exact w_first
  | succ n ih =>
    rw [rounds, ← List.append_assoc, run_append]
    exact w_round (ih (by omega)) (by omega) (by omega)

/-- One command waits for a sleeping node, 255 further ones have been acknowledged. -/
def busy : List Op := first ++ rounds 255

theorem mem_rounds {n : Nat} {o : Op} (h : o ∈ rounds n) : ∃ k, 1 ≤ k ∧ k ≤ n ∧ o ∈ round k := by
  induction n with
  | zero => cases h
  | succ n ih =>
    rcases List.mem_append.mp h with h | h
    · obtain ⟨k, h1, h2, h3⟩ := ih h
      exact ⟨k, h1, by omega, h3⟩
    · exact ⟨n + 1, by omega, by omega, h⟩

theorem refused {s : State} {P : Send → Prop} {n : Nat} (h : W P s n) (hn : n % 256 = 0) : (step s (.send .pure 0 0 3)).ackQueue = [(1, 0)] ∧ SendEnded (step s (.send .pure 0 0 3)) n (.error .duplicateAck) ∧
    (step s (.send .pure 0 0 3)).sends[0]? = s.sends[0]? ∧ (step s (.send .pure 0 0 3)).sends = s.sends ++ [⟨1, .done (.error .duplicateAck), .pending, 0, false, 0⟩] := by
  have hq : (s.seq + 1) % 256 = 1 := by rw [h.seq, hn]
  obtain ⟨b, hb⟩ := pure_packet 1 (by omega)
  have hmem : s.ackQueue.mem (((s.seq + 1) % 256 : Nat) : Int) = true := by rw [hq, h.queue]; rfl
  rcases send_cases s .pure 0 0 3 with ⟨e, he, -⟩ | ⟨_, -, hm, g1, g2⟩ | ⟨_, -, hm, -⟩
  · rw [hq, hb] at he; cases he
  · refine ⟨by rw [← h.queue]; exact g1, ⟨_, by simp only [Conn.step, g2]; rw [← h.len]; exact List.getElem?_concat_length, rfl⟩, ?_, ?_⟩
    · simp only [Conn.step, g2]
      obtain ⟨t, e, -⟩ := h.zero
      rw [List.getElem?_append_left (List.getElem?_eq_some_iff.mp e).1]
    · simp only [Conn.step, g2, hq]
  · rw [hmem] at hm; cases hm

theorem one_outstanding {s : State} {n : Nat} (h : W Waits s n) : outstanding s = 1 := by
  obtain ⟨t, h1, h2⟩ := h.zero
  cases hs : s.sends with
  | nil => rw [hs] at h1; cases h1
  | cons u l =>
    rw [hs] at h1
    cases h1
    have : l.filter (fun t : Send => match t.pc with | .done _ => false | _ => true) = [] := by
      rw [List.filter_eq_nil_iff]
      intro v hv
      obtain ⟨j, hj⟩ := List.getElem?_of_mem hv
      obtain ⟨r, hr⟩ := h.rest (j + 1) v (by omega) (by rw [hs]; exact hj)
      rw [hr]
      simp
    simp only [outstanding, hs, List.filter_cons, show t.pc = Pc.waiting from h2, if_true, this, List.length_singleton]

/-- **C165** does not hold: one command waits for a node that sleeps, every other one was acknowledged at once, and the 257th is refused with "Duplicate ackid used!". -/
theorem C165_violated : ¬ C165_statement := by
  intro h
  have w : W Waits (run init busy) 256 := w_rounds 255 (by omega)
  have hl := w.len
  obtain ⟨b, hb⟩ := pure_packet 1 (by omega)
  refine h busy .pure 0 0 3 b (fun i hi => ?_) (by rw [one_outstanding w]; omega) (by rw [hl]; exact hb) ⟨.duplicateAck, by rw [hl]; exact (refused w rfl).2.1⟩
  rcases List.mem_append.mp hi with hi | hi
  · simp [first] at hi
  · obtain ⟨k, -, -, hk⟩ := mem_rounds hi
    simp [round] at hk

/-- **C165**, as far as it holds: a command that can be composed is not refused if only the last 255 sends may be outstanding, and none of the earlier ones was cancelled. -/
theorem C165_partial (ops : List Op) (cmd : Msg) (src dst : Int) (timeout : Nat) (b : Bytes)
    (ho : ∀ j t, (run init ops).sends[j]? = some t → j + 256 ≤ (run init ops).sends.length → ∃ r, t.pc = .done r ∧ r ≠ .error .cancelled)
    (hb : (packetFor (((run init ops).sends.length + 1) % 256) src dst cmd).bind compose = .ok b) :
    ∃ t, (step (run init ops) (.send cmd src dst timeout)).sends[(run init ops).sends.length]? = some t ∧ t.pc = .waiting := by
  obtain ⟨t, h1, h2, -⟩ := C32_reusable ops cmd src dst timeout b (fun j u hj hu => ho j u hj (by
    have h1 := (C33_consecutive ops j u hj).1
    have h2 := (List.getElem?_eq_some_iff.mp hj).1
    rw [hu] at h1
    omega)) hb
  exact ⟨t, h1, h2⟩

/-- The second send is not refused while the first is outstanding. -/
example : ∃ t, (step (run init first) (.send .pure 0 0 3)).sends[1]? = some t ∧ t.pc = .waiting := by
  obtain ⟨b, hb⟩ := pure_packet 2 (by omega)
  have := C165_partial first .pure 0 0 3 b (by rw [w_first.len]; intro j t _ h; omega) (by rw [w_first.len]; exact hb)
  rw [w_first.len] at this
  exact this

/-! ## C166 -/

/-- The full property: if `send()` has returned True, then an acknowledgement for its number arrived before another packet was sent with this number. -/
def C166_statement : Prop := ∀ (ops : List Op) (i : Nat) (t : Send), (run init ops).sends[i]? = some t → t.pc = .done (.ok true) →
  ∃ before b after, ops = before ++ .packet b :: after ∧ AckFor b t.seq ∧ i < (run init before).sends.length ∧
    ∀ j u, i < j → (run init before).sends[j]? = some u → u.seq ≠ t.seq

/-- The packet of the refused send has been transmitted, and is acknowledged. -/
def mistaken : List Op := (busy ++ [.send .pure 0 0 3]) ++ [.packet (ack 1), .resume 0]

theorem no_ack {b : Bytes} (h : .packet b ∈ busy ++ [Op.send .pure 0 0 3]) : ¬ AckFor b 1 := by
  intro ha
  simp only [List.mem_append, busy, first, List.mem_cons, List.not_mem_nil, or_false, reduceCtorEq, false_or] at h
  rcases h with h | h
  · injection h with h
    subst h
    obtain ⟨p, h1, -, h3, -⟩ := ha
    have : (decode asleep).toOption.map (·.flag "ackResponse") = some false := by decide +kernel
    rw [h1] at this
    injection this with this
    exact absurd (h3.symm.trans this) (by simp)
  · obtain ⟨k, h1, h2, hk⟩ := mem_rounds h
    simp only [round, List.mem_cons, List.not_mem_nil, or_false, reduceCtorEq, false_or] at hk
    injection hk with hk
    rw [hk] at ha
    have := ackFor_unique (ackFor ((k + 1) % 256) (by omega)) ha
    omega

theorem ended {s : State} {t : Send} (hq : s.ackQueue = [(1, 0)]) (ht : s.sends[0]? = some t) (hw : t.pc = .waiting) :
    (run s [.packet (ack 1), .resume 0]).sends[0]? = some { t.received with pc := .done (.ok true) } := by
  have hp := (onPacket_ack (ackFor 1 (by omega)) (show s.ackQueue.get? ((1 : Nat) : Int) = some 0 by rw [hq]; rfl) ht).1
  have hl := (List.getElem?_eq_some_iff.mp ht).1
  rw [run_cons, hp]
  have e : (s.sends.set 0 t.received)[0]? = some t.received := List.getElem?_set_self hl
  show (Conn.step _ (.resume 0)).sends[0]? = _
  simp only [Conn.step, e]
  have g1 : t.received.inner = true := by simp [Send.received, hw]
  have g2 : t.received.pc = .waiting := hw
  have g3 : t.received.status = .received := rfl
  simp only [g1, g2, g3, true_or, and_self, if_true, reduceCtorEq, if_false]
  rw [List.getElem?_set_self (by rw [List.length_set]; exact hl)]

/-- **C166** does not hold: the acknowledgement of the refused packet ends the send to the node that still sleeps. -/
theorem C166_violated : ¬ C166_statement := by
  intro h
  have w : W Waits (run init busy) 256 := w_rounds 255 (by omega)
  obtain ⟨r1, -, r3, r4⟩ := refused w rfl
  obtain ⟨t, h1, h2⟩ := w.zero
  have r4 := congrArg List.length r4
  rw [List.length_append, w.len, List.length_singleton] at r4
  rw [h1] at r3
  have hseq : t.seq = 1 := by
    have := (C33_consecutive busy 0 t h1).1
    exact this
  rw [← run_snoc] at r1 r3 r4
  have hrun : (run init mistaken).sends[0]? = some { t.received with pc := .done (.ok true) } := by
    rw [mistaken, run_append]
    exact ended r1 r3 h2
  obtain ⟨before, b, after, e, ha, -, hu⟩ := h mistaken 0 _ hrun rfl
  have ha : AckFor b 1 := by rw [← hseq]; exact ha
  rw [mistaken] at e
  rcases List.append_eq_append_iff.mp e with ⟨x, h4, h5⟩ | ⟨x, h4, h5⟩
  · rw [h4] at hu
    have hl : ((run init (busy ++ [Op.send .pure 0 0 3] ++ x)).sends)[256]? ≠ none := by
      cases x with
      | nil => rw [List.append_nil, Ne, List.getElem?_eq_none_iff, r4]; omega
      | cons o x =>
        injection h5 with h5 h6
        cases x with
        | nil =>
          cases h6
        | cons o' x => injection h6 with h6 h7; cases x <;> cases h7
    cases hv : ((run init (busy ++ [Op.send .pure 0 0 3] ++ x)).sends)[256]? with
    | none => exact hl hv
    | some u =>
      refine hu 256 u (by omega) hv ?_
      have := (C33_consecutive _ 256 u hv).1
      rw [this]
      exact hseq.symm
  · cases x with
    | nil =>
      rw [List.append_nil] at h4
      rw [← h4] at hu
      cases hv : ((run init (busy ++ [Op.send .pure 0 0 3])).sends)[256]? with
      | none => rw [List.getElem?_eq_none_iff, r4] at hv; omega
      | some u =>
        refine hu 256 u (by omega) hv ?_
        have := (C33_consecutive _ 256 u hv).1
        rw [this]
        exact hseq.symm
    | cons o x =>
      injection h5 with h5 h6
      refine no_ack (b := b) ?_ ha
      rw [h4, ← h5]
      simp

/-- **C166**, as far as it holds: for sends that are not followed by 256 further ones. -/
theorem C166_partial (ops : List Op) (i : Nat) (t : Send) (ht : (run init ops).sends[i]? = some t) (hd : t.pc = .done (.ok true)) (hl : (run init ops).sends.length ≤ i + 256) :
    ∃ before b after, ops = before ++ .packet b :: after ∧ AckFor b t.seq ∧ i < (run init before).sends.length ∧
      ∀ j u, i < j → (run init before).sends[j]? = some u → u.seq ≠ t.seq := by
  obtain ⟨before, b, after, u, rfl, h1, h2, -⟩ := C29_true_only_after_ack ops i t ht hd
  have mono : ∀ (l : List Op) (s : State), s.sends.length ≤ (run s l).sends.length := by
    intro l
    induction l with
    | nil => exact fun s => Nat.le_refl _
    | cons o l ih =>
      intro s
      rw [run_cons]
      refine Nat.le_trans ?_ (ih _)
      rcases step_seq s o with ⟨-, h⟩ | h
      · omega
      · have := h; omega
  refine ⟨before, b, after, rfl, h1, (List.getElem?_eq_some_iff.mp h2).1, fun j v hj hv => ?_⟩
  have h3 := (List.getElem?_eq_some_iff.mp hv).1
  have h4 := mono (.packet b :: after) (run init before)
  rw [← run_append] at h4
  have h5 := (C33_consecutive _ i t ht).1
  have h6 := (C33_consecutive _ j v hv).1
  rw [h5, h6]
  omega

example : ∃ before b after, first ++ [.packet (ack 1), .resume 0] = before ++ .packet b :: after ∧ AckFor b 1 := by
  have h : (run init (first ++ [.packet (ack 1), .resume 0])).sends = [⟨1, .done (.ok true), .received, 65, true, 65⟩] := by decide +kernel
  obtain ⟨x, b, y, h1, h2, -⟩ := C166_partial _ 0 _ (by rw [h]; rfl) rfl (by rw [h]; simp)
  exact ⟨x, b, y, h1, h2⟩

/-! ## C167 -/

/-- The full property: when all sends have ended, a command that can be composed is not refused. -/
def C167_statement : Prop := ∀ (ops : List Op) (cmd : Msg) (src dst : Int) (timeout : Nat) (b : Bytes), (∀ t ∈ (run init ops).sends, ∃ r, t.pc = .done r) →
  (packetFor (((run init ops).sends.length + 1) % 256) src dst cmd).bind compose = .ok b →
  ¬ ∃ e, SendEnded (step (run init ops) (.send cmd src dst timeout)) (run init ops).sends.length (.error e)

/-- A send that is cancelled. -/
def cancelledOne : List Op := [.send .pure 0 0 3, .kill 0]

def Cancelled (t : Send) : Prop := t.pc = .done (.error .cancelled)

/-- Sends 1 to `n`. Those that are not refused are acknowledged at once. -/
def turns : Nat → List Op
  | 0 => []
  | n + 1 => turns n ++ if (n + 1) % 256 = 0 then [.send .pure 0 0 3] else round (n + 1)

theorem w_turns (n : Nat) : W Cancelled (run init (cancelledOne ++ turns n)) (n + 1) := by
  induction n with
  | zero =>
    have h : (run init cancelledOne).ackQueue = [(1, 0)] ∧ (run init cancelledOne).seq = 1 ∧ (run init cancelledOne).sends = [⟨1, .done (.error .cancelled), .pending, 0, false, 3⟩] := by
      decide +kernel
    obtain ⟨h1, h2, h3⟩ := h
    rw [turns, List.append_nil]
    refine ⟨h1, by rw [h3]; rfl, h2, ⟨⟨1, .done (.error .cancelled), .pending, 0, false, 3⟩, by rw [h3]; rfl, rfl⟩, fun j t hj ht => ?_⟩
    rw [h3] at ht
    cases j with
    | zero => omega
    | succ j => simp at ht
  | succ n ih =>
    rw [turns, ← List.append_assoc, run_append]
    generalize run init (cancelledOne ++ turns n) = s at ih ⊢
    split
    · rename_i hn
      obtain ⟨h1, h2, h3, h4⟩ := refused ih hn
      have hr : ∀ o, run s [o] = step s o := fun _ => rfl
      rw [hr]
      have h5 := (send_frame s .pure 0 0 3).1
      refine ⟨h1, by rw [h4, List.length_append, ih.len, List.length_singleton], ?_, by rw [h3]; exact ih.zero, fun j t hj ht => ?_⟩
      · rw [show (step s (.send .pure 0 0 3)).seq = _ from h5, ih.seq]; omega
      · rw [h4] at ht
        by_cases hl : j < s.sends.length
        · rw [List.getElem?_append_left hl] at ht
          exact ih.rest j t hj ht
        · rw [List.getElem?_append_right (by omega), List.getElem?_singleton] at ht
          split at ht
          · cases ht; exact ⟨_, rfl⟩
          · cases ht
    · rename_i hn
      exact w_round ih (by omega) hn

/-- **C167**: the 256th send after one that was cancelled and is never acknowledged is refused, and so is every 256th one after that, for ever. -/
theorem C167_forever (m : Nat) : (∀ t ∈ (run init (cancelledOne ++ turns (256 * m + 255))).sends, ∃ r, t.pc = .done r) ∧
    SendEnded (step (run init (cancelledOne ++ turns (256 * m + 255))) (.send .pure 0 0 3)) (256 * m + 256) (.error .duplicateAck) := by
  have w := w_turns (256 * m + 255)
  refine ⟨fun t ht => ?_, (refused w (by omega)).2.1⟩
  obtain ⟨j, hj⟩ := List.getElem?_of_mem ht
  cases j with
  | zero =>
    obtain ⟨t', h1, h2⟩ := w.zero
    rw [h1] at hj
    cases hj
    exact ⟨_, h2⟩
  | succ j => exact w.rest _ t (by omega) hj

/-- **C167** does not hold. -/
theorem C167_violated : ¬ C167_statement := by
  intro h
  obtain ⟨h1, h2⟩ := C167_forever 0
  have hl := (w_turns 255).len
  obtain ⟨b, hb⟩ := pure_packet 1 (by omega)
  exact h (cancelledOne ++ turns 255) .pure 0 0 3 b h1 (by rw [hl]; exact hb) ⟨.duplicateAck, by rw [hl]; exact h2⟩

/-- **C167**, as far as it holds: when all sends have ended, and those that were cancelled have been acknowledged nevertheless, a command that can be composed is not refused. -/
theorem C167_partial (ops : List Op) (cmd : Msg) (src dst : Int) (timeout : Nat) (b : Bytes)
    (ho : ∀ t ∈ (run init ops).sends, ∃ r, t.pc = .done r ∧ (r = .error .cancelled → t.status = .received))
    (hb : (packetFor (((run init ops).sends.length + 1) % 256) src dst cmd).bind compose = .ok b) :
    ∃ t, (step (run init ops) (.send cmd src dst timeout)).sends[(run init ops).sends.length]? = some t ∧ t.pc = .waiting := by
  have hi := inv_run ops
  have hq : ((run init ops).seq + 1) % 256 = ((run init ops).sends.length + 1) % 256 := by rw [hi.last]; omega
  rcases send_cases (run init ops) cmd src dst timeout with ⟨e, he, -⟩ | ⟨_, -, hm, -⟩ | ⟨_, -, -, -, hs⟩
  · rw [hq, hb] at he; cases he
  · rw [Dict.mem] at hm
    obtain ⟨j, hg⟩ := Option.isSome_iff_exists.mp hm
    obtain ⟨t, h1, -, h3, h4⟩ := hi.own _ _ hg
    obtain ⟨r, hr, hc⟩ := ho t (List.mem_of_getElem? h1)
    rcases h4 with h4 | h4
    · exact absurd hr (h4 r)
    · rw [hr] at h4
      injection h4 with h4
      exact absurd (hc h4) h3
  · exact ⟨_, by simp only [Conn.step, hs]; exact List.getElem?_concat_length, rfl⟩

/-- A send that was cancelled and acknowledged. -/
example : ((run init (cancelledOne ++ [.packet (ack 1)])).sends.map fun t => (t.pc, t.status)) = [(.done (.error .cancelled), .received)] ∧
    ((step (run init (cancelledOne ++ [.packet (ack 1)])) (.send .pure 0 0 3)).sends.map (·.pc)) = [.done (.error .cancelled), .waiting] := by decide +kernel

/-! ### All schedules -/

/-- Send `i` has ended, with a result in `Q`; or its number is registered for it, every other send with the number has ended, and the later ones with an exception. -/
def Held (Q : Py Bool → Prop) (s : State) (i : Nat) : Prop :=
  ∃ t, s.sends[i]? = some t ∧ ((∃ r, t.pc = .done r ∧ Q r) ∨ s.ackQueue.get? (t.seq : Int) = some i ∧
    ∀ (j : Nat) (u : Send), j ≠ i → s.sends[j]? = some u → u.seq = t.seq → ∃ r, u.pc = .done r ∧ (i < j → ∃ e, r = .error e))

theorem Held.step {Q : Py Bool → Prop} (hQ : Q (.ok false)) {s : State} {i : Nat} (hi : Inv s) (h : Held Q s i) {op : Op} (hop : ∀ b, op = .packet b → ¬ AckFor b ((i + 1) % 256)) :
    Held Q (step s op) i := by
  obtain ⟨t, ht, hm⟩ := h
  obtain ⟨t', ht', tr⟩ := step_send s op i t ht
  have hseq : t'.seq = t.seq := by cases tr <;> rfl
  have hnum := hi.seqs i t ht
  refine ⟨t', ht', ?_⟩
  rcases hm with ⟨r, hr, hne⟩ | ⟨hreg, hoth⟩
  · left
    cases tr with
    | same => exact ⟨r, hr, hne⟩
    | queued => exact ⟨r, hr, hne⟩
    | received => exact ⟨r, hr, hne⟩
    | timer a1 => rw [hr] at a1; cases a1
    | rearm a1 a2 => rw [hr] at a2; simp at a2
    | success a1 a2 => rw [hr] at a2; simp at a2
    | giveUp a1 a2 => rw [hr] at a2; cases a2
    | failed a1 => rw [hr] at a1; cases a1
    | raised a1 => rw [hr] at a1; cases a1
    | killed a1 => exact absurd hr (a1 r)
  · obtain ⟨t0, o1, o2, o3, o4⟩ := hi.own _ i hreg
    rw [ht] at o1; cases o1
    rcases step_queue_fwd s op _ i hreg with h | ⟨b, p, rfl, -, -, h⟩ | ⟨j, u, rfl, hj, hc, he⟩
    · right
      rw [hseq]
      refine ⟨h, fun j u hj hu he => ?_⟩
      rcases step_back s op j u hu with ⟨hn, -⟩ | ⟨u0, hu0, tru⟩
      · obtain ⟨-, cmd, src, dst, timeout, -, h⟩ := step_new s op j u hn hu
        rcases h with ⟨e, h, -⟩ | ⟨h, hmem, -⟩
        · exact ⟨_, by rw [h], fun _ => ⟨e, rfl⟩⟩
        · exfalso
          have : ((s.seq + 1) % 256) = t.seq := by rw [← he, h]
          rw [this] at hmem
          simp [Dict.mem, hreg] at hmem
      · have hu0s : u0.seq = t.seq := by rw [← he]; cases tru <;> rfl
        obtain ⟨r, hr, hl⟩ := hoth j u0 hj hu0 hu0s
        cases tru with
        | same => exact ⟨r, hr, hl⟩
        | queued => exact ⟨r, hr, hl⟩
        | received => exact ⟨r, hr, hl⟩
        | timer a1 => rw [hr] at a1; cases a1
        | rearm a1 a2 => rw [hr] at a2; simp at a2
        | success a1 a2 => rw [hr] at a2; simp at a2
        | giveUp a1 a2 => rw [hr] at a2; cases a2
        | failed a1 => rw [hr] at a1; cases a1
        | raised a1 => rw [hr] at a1; cases a1
        | killed a1 => exact absurd hr (a1 r)
    · exfalso
      have e := h t ht
      rw [ht'] at e
      injection e with e
      have hst : t'.status = .received := by rw [e]; rfl
      cases tr with
      | same => exact o3 hst
      | queued => cases hst
      | received b q p a1 a2 a3 a4 a5 a6 a7 =>
        refine hop b rfl ⟨p, a1, a2, a3, a4, ?_⟩
        obtain ⟨u, b1, b2, -⟩ := hi.own q i a6
        rw [ht] at b1; cases b1
        rw [a5, ← b2, hnum]
    · by_cases hji : j = i
      · subst hji
        rw [ht] at hj; cases hj
        left
        have : (Conn.step s (.cancelled j)).sends[j]? = some { t with pc := .done (.ok false) } := by
          simp only [Conn.step, ht, if_pos hc]
          rw [if_pos (by simp [Dict.mem, hreg])]
          exact Waiter.getElem?_set_some ht
        rw [ht'] at this
        cases this
        exact ⟨_, rfl, hQ⟩
      · obtain ⟨r, hr, -⟩ := hoth j u hji hj (by omega)
        rw [hr] at hc; cases hc

theorem Held.run {Q : Py Bool → Prop} (hQ : Q (.ok false)) (ops : List Op) : ∀ {s : State} {i : Nat}, Inv s → Held Q s i → (∀ b, .packet b ∈ ops → ¬ AckFor b ((i + 1) % 256)) →
    Held Q (run s ops) i := by
  induction ops with
  | nil => intro s i _ h _; exact h
  | cons op ops ih =>
    intro s i hi h hno
    exact ih (hi.step op) (h.step hQ hi fun b e => hno b (by rw [e]; exact List.mem_cons_self)) fun b hb => hno b (List.mem_cons_of_mem _ hb)

/-- **C167**, for all schedules: as long as a send is outstanding, or has been cancelled, and its number has not been acknowledged, every later send that gets the same number fails
with an exception, whatever is sent and whatever else happens. (No earlier send with its number was outstanding when it was made.) -/
theorem C167_always (before after : List Op) (cmd : Msg) (src dst : Int) (timeout i : Nat) (t0 t : Send) (hi : i = (run init before).sends.length)
    (hf : ∀ j u, (run init before).sends[j]? = some u → j % 256 = i % 256 → ∃ r, u.pc = .done r)
    (hw : (run init (before ++ [.send cmd src dst timeout])).sends[i]? = some t0) (hp : t0.pc = .waiting)
    (hno : ∀ b, .packet b ∈ after → ¬ AckFor b ((i + 1) % 256))
    (ht : (run init (before ++ .send cmd src dst timeout :: after)).sends[i]? = some t) (ho : ∀ r, t.pc = .done r → r = .error .cancelled)
    (j : Nat) (u : Send) (hj : i < j) (hu : (run init (before ++ .send cmd src dst timeout :: after)).sends[j]? = some u) (hm : j % 256 = i % 256) :
    ∃ e, u.pc = .done (.error e) := by
  subst hi
  have hinv := inv_run before
  have hinv' := inv_run (before ++ [.send cmd src dst timeout])
  have hrun : run init (before ++ .send cmd src dst timeout :: after) = run (run init (before ++ [.send cmd src dst timeout])) after := by
    rw [← run_append, List.append_assoc]; rfl
  have hfin := inv_run (before ++ .send cmd src dst timeout :: after)
  rw [hrun] at ht hu hfin
  rw [run_snoc] at hw hinv' ht hu hfin
  generalize run init before = s at *
  have h0 : Held (· ≠ .error .cancelled) (Conn.step s (.send cmd src dst timeout)) s.sends.length := by
    refine ⟨t0, hw, .inr ?_⟩
    have hq : (s.seq + 1) % 256 = (s.sends.length + 1) % 256 := by rw [hinv.last]; omega
    have dead : ∀ (x : Send) (r : Py Bool), (send s cmd src dst timeout).sends = s.sends ++ [x] → x.pc = .done r → False := by
      intro x r e hx
      rw [Conn.step, e, List.getElem?_concat_length] at hw
      cases hw
      rw [hx] at hp; cases hp
    rcases send_cases s cmd src dst timeout with ⟨e, -, -, hs⟩ | ⟨b, -, -, -, hs⟩ | ⟨b, -, hmem, hqe, hs⟩
    · exact absurd (dead _ _ hs rfl) id
    · exact absurd (dead _ _ hs rfl) id
    · have hnum := hinv'.seqs _ _ hw
      refine ⟨by simp only [Conn.step, hqe]; rw [Dict.get?_set, if_pos (by rw [hnum, hq])], fun j u hne hu he => ?_⟩
      have hu' := hinv'.seqs j u hu
      simp only [Conn.step, hs] at hu
      have := Waiter.lt_of_getElem? hu
      simp at this
      rw [List.getElem?_append_left (by omega)] at hu
      obtain ⟨r, hr⟩ := hf j u hu (by omega)
      exact ⟨r, hr, fun _ => by omega⟩
  obtain ⟨t', h1, h2⟩ := h0.run nofun after hinv' hno
  rw [ht] at h1; cases h1
  rcases h2 with ⟨r, hr, hne⟩ | ⟨-, h2⟩
  · exact absurd (ho r hr) hne
  · obtain ⟨r, hr, he⟩ := h2 j u (by omega) hu (by rw [hfin.seqs _ _ hu, hfin.seqs _ _ ht]; omega)
    obtain ⟨e, rfl⟩ := he hj
    exact ⟨e, hr⟩

theorem Held.first (ops : List Op) (i : Nat) (h256 : i < 256) (hno : ∀ b, .packet b ∈ ops → ¬ AckFor b ((i + 1) % 256)) (hl : i < (Conn.run init ops).sends.length) :
    Held (fun _ => True) (Conn.run init ops) i := by
  induction ops using snoc_ind with
  | nil => simp [Conn.run, init] at hl
  | snoc ops op ih =>
    have hno' : ∀ b, .packet b ∈ ops → ¬ AckFor b ((i + 1) % 256) := fun b hb => hno b (List.mem_append_left _ hb)
    have hinv := inv_run ops
    have hinv' := inv_run (ops ++ [op])
    rw [run_snoc] at hl hinv' ⊢
    cases hn : (Conn.run init ops).sends[i]? with
    | some t =>
      refine (ih hno' (List.getElem?_eq_some_iff.mp hn).1).step trivial hinv fun b e => hno b ?_
      rw [e]; simp
    | none =>
      obtain ⟨t, ht⟩ : ∃ t, (Conn.step (Conn.run init ops) op).sends[i]? = some t := ⟨_, List.getElem?_eq_getElem hl⟩
      obtain ⟨hlen, cmd, src, dst, timeout, -, h⟩ := step_new _ op i t hn ht
      refine ⟨t, ht, ?_⟩
      rcases h with ⟨e, h, -⟩ | ⟨h, -, hq⟩
      · exact .inl ⟨_, by rw [h], trivial⟩
      · right
        refine ⟨by rw [hq, Dict.get?_set, h, if_pos rfl, hlen], fun j u hj hu he => ?_⟩
        exfalso
        have h1 := (List.getElem?_eq_some_iff.mp hu).1
        have h2 := hinv'.seqs j u hu
        have h3 := hinv'.seqs i t ht
        have h4 : (Conn.step (Conn.run init ops) op).sends.length ≤ (Conn.run init ops).sends.length + 1 := by
          rcases step_seq (Conn.run init ops) op with ⟨-, h⟩ | ⟨-, h⟩ <;> omega
        omega

/-- **C167**, the first sends: a send among the first 256 that is cancelled while it is outstanding, and never acknowledged. -/
theorem C167_first (before after : List Op) (i : Nat) (h256 : i < 256) (t : Send) (ht : (run init before).sends[i]? = some t) (ho : ∀ r, t.pc ≠ .done r)
    (hno : ∀ b, .packet b ∈ before ++ after → ¬ AckFor b ((i + 1) % 256)) (j : Nat) (u : Send) (hj : i < j) (hm : j % 256 = i % 256)
    (hu : (run init (before ++ .kill i :: after)).sends[j]? = some u) : ∃ e, u.pc = .done (.error e) := by
  have hfin := inv_run (before ++ .kill i :: after)
  have hinv := inv_run before
  have h := Held.first before i h256 (fun b hb => hno b (List.mem_append_left _ hb)) (List.getElem?_eq_some_iff.mp ht).1
  rw [run_append, run_cons] at hu hfin
  generalize run init before = s at *
  have hk : (Conn.step s (.kill i)).sends[i]? = some { t with pc := .done (.error .cancelled) } ∧ (Conn.step s (.kill i)).ackQueue = s.ackQueue ∧
      ∀ j, j ≠ i → (Conn.step s (.kill i)).sends[j]? = s.sends[j]? := by
    have : Conn.step s (.kill i) = { s with sends := s.sends.set i { t with pc := .done (.error .cancelled) } } := by
      simp only [Conn.step, ht]
    rw [this]
    exact ⟨Waiter.getElem?_set_some ht, rfl, fun j hj => List.getElem?_set_ne (Ne.symm hj)⟩
  have h' : Held (· ≠ .error .cancelled) (Conn.step s (.kill i)) i := by
    obtain ⟨t', h1, h2⟩ := h
    rw [ht] at h1; cases h1
    rcases h2 with ⟨r, hr, -⟩ | ⟨h2, h3⟩
    · exact absurd hr (ho r)
    · refine ⟨_, hk.1, .inr ⟨by rw [hk.2.1]; exact h2, fun j u hj hu he => h3 j u hj (by rw [← hk.2.2 j hj]; exact hu) he⟩⟩
  obtain ⟨t', h1, h2⟩ := h'.run nofun after (hinv.step _) fun b hb => hno b (List.mem_append_right _ hb)
  have hcan : ∀ (l : List Op) (s : State) (t : Send), Inv s → s.sends[i]? = some t → t.pc = .done (.error .cancelled) → ∀ t', (Conn.run s l).sends[i]? = some t' → t'.pc = .done (.error .cancelled) := by
    intro l
    induction l with
    | nil => intro s t _ h1 h2 t' h3; rw [show (Conn.run s []).sends[i]? = s.sends[i]? from rfl, h1] at h3; cases h3; exact h2
    | cons o l ih =>
      intro s t hi h1 h2 t' h3
      obtain ⟨t1, e1, tr⟩ := step_send s o i t h1
      refine ih _ t1 (hi.step o) e1 ?_ t' h3
      cases tr with
      | same => exact h2
      | queued => exact h2
      | received => exact h2
      | timer a1 => rw [h2] at a1; cases a1
      | rearm a1 a2 => rw [h2] at a2; simp at a2
      | success a1 a2 => rw [h2] at a2; simp at a2
      | giveUp a1 a2 => rw [h2] at a2; cases a2
      | failed a1 => rw [h2] at a1; cases a1
      | raised a1 => rw [h2] at a1; cases a1
      | killed a1 => exact absurd h2 (a1 _)
  rcases h2 with ⟨r, hr, hne⟩ | ⟨-, h2⟩
  · have := hcan after _ _ (hinv.step _) hk.1 rfl _ h1
    rw [hr] at this
    injection this with this
    exact absurd this hne
  · obtain ⟨r, hr, he⟩ := h2 j u (by omega) hu (by rw [hfin.seqs _ _ hu, hfin.seqs _ _ h1]; omega)
    obtain ⟨e, rfl⟩ := he hj
    exact ⟨e, hr⟩

open Model.ToNode in
/-- **C167**, nodes: if one of the first 256 sends on a connection to a node is cancelled while it is outstanding, and its number never acknowledged, then every call of `sendToNode()` whose
command goes out on this connection a multiple of 256 sends later raises an exception when it continues. -/
theorem C167_nodes (before after : List ToNode.Op) (k i : Nat) (l : Gateway.Link) (h256 : i < 256) (t : Send) (hl : (ToNode.run ToNode.init before).gw.links[k]? = some l)
    (ht : l.conn.sends[i]? = some t) (ho : ∀ r, t.pc ≠ .done r) (hno : ∀ b, .gw (.link k (.packet b)) ∈ before ++ after → ¬ AckFor b ((i + 1) % 256))
    (c j : Nat) (call : ToNode.Call) (hj : i < j) (hm : j % 256 = i % 256)
    (hc : (ToNode.run ToNode.init (before ++ .gw (.link k (.kill i)) :: after)).calls[c]? = some call) (hp : call.pc = .sending k j) :
    ∃ e, (ToNode.step (ToNode.run ToNode.init (before ++ .gw (.link k (.kill i)) :: after)) (.resume c)).calls[c]? = some { call with pc := .done (.error e) } := by
  have hok := (ToNode.inv_run (before ++ .gw (.link k (.kill i)) :: after)).calls c call hc
  simp only [CallOk, hp] at hok
  obtain ⟨l', h1, -, h3⟩ := hok
  have hconn := link_conn _ k l' h1
  have hproj : proj k ToNode.init (before ++ .gw (.link k (.kill i)) :: after) = proj k ToNode.init before ++ .kill i :: proj k (ToNode.run ToNode.init (before ++ [.gw (.link k (.kill i))])) after := by
    have e : ToNode.run ToNode.init (before ++ [.gw (.link k (.kill i))]) = ToNode.step (ToNode.run ToNode.init before) (.gw (.link k (.kill i))) := by
      simp only [ToNode.run, List.foldl_append, List.foldl_cons, List.foldl_nil]
    have e' : ToNode.linkOps k (ToNode.run ToNode.init before) (.gw (.link k (.kill i))) = [.kill i] := by simp [ToNode.linkOps, Gateway.linkOps]
    rw [e, proj_append, proj, if_pos (by rw [hl]; rfl), e']
    rfl
  obtain ⟨u, hu⟩ : ∃ u, l'.conn.sends[j]? = some u := ⟨_, List.getElem?_eq_getElem h3⟩
  have hbase := link_conn _ k l hl
  obtain ⟨e, he⟩ := C167_first (proj k ToNode.init before) (proj k (ToNode.run ToNode.init (before ++ [.gw (.link k (.kill i))])) after) i h256 t (by rw [← hbase]; exact ht) ho
    (fun b hb => by
      refine hno b ?_
      rcases List.mem_append.mp hb with hb | hb
      · obtain ⟨x, y, hxy⟩ := List.append_of_mem hb
        obtain ⟨p, q, rfl, -⟩ := proj_split k b _ _ x y hxy
        simp
      · obtain ⟨x, y, hxy⟩ := List.append_of_mem hb
        obtain ⟨p, q, rfl, -⟩ := proj_split k b _ _ x y hxy
        simp) j u hj hm (by rw [← hproj, ← hconn]; exact hu)
  refine ⟨e, ?_⟩
  generalize ToNode.run ToNode.init (before ++ .gw (.link k (.kill i)) :: after) = s at *
  have : linkResult s.gw k j = some (.error e) := by simp only [linkResult, h1, hu, he]
  simp only [ToNode.step, ToNode.proceed, hc, hp, this]
  exact Waiter.getElem?_set_some hc

/-- The command that opens the connection to node 3 has been sent. -/
def opened3 : List ToNode.Op :=
  [.gw (.conn .connect), .send 3 (.known 0x2502 []) 0 0 3, .gw (.conn (.packet ([0x58, 0x01, 0, 3] ++ List.replicate 15 0xFD ++ [3] ++ [1, 2, 3, 4]))),
   .gw (.conn (.waiter (.resume 0))), .gw (.job 0 []), .gw (.opened 0 true), .resume 0]

/-- It is cancelled; the call after 255 further commands raises. -/
example : ∃ e, (ToNode.step (ToNode.run ToNode.init (opened3 ++ .gw (.link 0 (.kill 0)) :: (List.replicate 255 (.gw (.link 0 (.send .pure 0 0 3))) ++ [.send 3 .pure 0 0 3]))) (.resume 1)).calls[1]? =
    some ⟨3, .pure, 0, 0, 3, .done (.error e)⟩ := by
  have h : ((ToNode.run ToNode.init opened3).gw.links[0]?.bind (·.conn.sends[0]?)) = some ⟨1, .waiting, .pending, 0, false, 3⟩ := by decide +kernel
  have hc : (ToNode.run ToNode.init (opened3 ++ .gw (.link 0 (.kill 0)) :: (List.replicate 255 (.gw (.link 0 (.send .pure 0 0 3))) ++ [.send 3 .pure 0 0 3]))).calls[1]? =
      some ⟨3, .pure, 0, 0, 3, .sending 0 256⟩ := by decide +kernel
  obtain ⟨l, hl, ht⟩ := Option.bind_eq_some_iff.mp h
  refine C167_nodes opened3 (List.replicate 255 (.gw (.link 0 (.send .pure 0 0 3))) ++ [.send 3 .pure 0 0 3]) 0 0 l (by omega) _ hl ht nofun (fun b hb => ?_) 1 256 _ (by omega) rfl hc rfl
  simp only [opened3, List.mem_append, List.mem_replicate, List.mem_cons, List.not_mem_nil, or_false, ToNode.Op.gw.injEq, Gateway.Op.link.injEq, reduceCtorEq, and_false] at hb

theorem turns_no_ack {n : Nat} {b : Bytes} (hb : .packet b ∈ turns n) : ¬ AckFor b 1 := by
  intro ha
  induction n with
  | zero => cases hb
  | succ n ih =>
    rw [turns] at hb
    rcases List.mem_append.mp hb with hb | hb
    · exact ih hb
    · split at hb
      · simp at hb
      · simp only [round, List.mem_cons, List.not_mem_nil, or_false, reduceCtorEq, false_or] at hb
        injection hb with hb
        rw [hb] at ha
        have := ackFor_unique (ackFor ((n + 1 + 1) % 256) (by omega)) ha
        omega

/-- The schedule of `C167_forever` is one of these: the send that was cancelled was the first one. -/
example (n j : Nat) (u : Send) (hj : 0 < j) (hm : j % 256 = 0) (hu : (run init (cancelledOne ++ turns n)).sends[j]? = some u) : ∃ e, u.pc = .done (.error e) := by
  obtain ⟨t, h1, h2⟩ := (w_turns n).zero
  refine C167_always [] (.kill 0 :: turns n) .pure 0 0 3 0 ⟨1, .waiting, .pending, 0, false, 3⟩ t rfl (fun j u h => by simp [run, init] at h) (by decide +kernel) rfl (fun b hb => ?_)
    h1 (fun r hr => ?_) j u hj hu hm
  · rcases List.mem_cons.mp hb with hb | hb
    · cases hb
    · exact turns_no_ack hb
  · rw [show t.pc = _ from h2] at hr
    cases hr; rfl

end Props.Sleeping

import Verif.Lemmas.Conn
import Verif.Props.Zip
/-!
# Properties C29-C37 and C81: Z/IP connections

The state of the world is reached from `init` by an arbitrary schedule (`Model/Conn.lean`). Calls of `send()` are numbered in the order in which they are
made.
-/
namespace Props
open Spec Model Model.Conn

/-- The call `i` of `send()` has ended with `r`. -/
def SendEnded (s : State) (i : Nat) (r : Py Bool) : Prop := ∃ t, s.sends[i]? = some t ∧ t.pc = .done r

/-- The call `i` of `send()` has not ended, its packet has number `q` and its (present) timeout is not over yet. -/
def Outstanding (s : State) (i q : Nat) : Prop := ∃ t, s.sends[i]? = some t ∧ t.seq = q ∧ (∀ r, t.pc ≠ .done r) ∧ s.now < t.deadline

/-- No unfinished call of `send()` uses the number `q`. -/
def NumberFree (s : State) (q : Nat) : Prop := ∀ (j : Nat) (u : Send), s.sends[j]? = some u → u.seq = q → ∃ r, u.pc = .done r

/-- A real acknowledgement on the wire: any packet with the flag "ack response", whatever the other flags except "nack", is an `AckFor` its number. -/
theorem ackFor_wire (h : ZipHeader) (hf : h.Fits) (ha : h.ackResponse = true) (hn : h.nackResponse = false) (rest : Bytes) (m : Msg)
    (hd : decode (h.bytes ++ rest) = .ok m) : AckFor (h.bytes ++ rest) h.seq := by
  have hd' := hd
  simp only [ZipHeader.bytes, List.cons_append, List.nil_append] at hd'
  rw [zip_decode] at hd'
  obtain ⟨⟨o, cb⟩, -, hd'⟩ := bind_ok hd'
  have hm : m.hid = 0x2302 ∧ m.attrs = zipAll h.flags0 h.flags1 (UInt8.ofNat h.seq) (UInt8.ofNat h.src) (UInt8.ofNat h.dst) o := by
    simp only at hd'
    split at hd'
    · cases hd'; exact ⟨rfl, rfl⟩
    · obtain ⟨c, -, hd'⟩ := bind_ok hd'; cases hd'; exact ⟨rfl, rfl⟩
  obtain ⟨d1, -, d3, d4, -, -, -, -, -, -, -, d12, -⟩ := describes_attrs h hf m hm.1 o hm.2
  exact ⟨m, hd, d1, by rw [d3, ha], by rw [d4, hn]; simp, d12⟩

/-! ## C29 -/

/-- **C29.** If `send()` has returned True then an acknowledgement for its number has arrived while it was waiting: after it
was called (it is in the list of calls) and before it gave up (the timer had not released it, or only after it had been told that the packet is queued). -/
theorem C29_true_only_after_ack (ops : List Op) (i : Nat) (t : Send) (ht : (run init ops).sends[i]? = some t) (hd : t.pc = .done (.ok true)) :
    ∃ before b after u, ops = before ++ .packet b :: after ∧ AckFor b t.seq ∧ (run init before).sends[i]? = some u ∧
      (u.pc = .waiting ∨ u.pc = .timedOut ∧ u.status = .queued) :=
  acked_of_received ops i t ht (received_of_true ops i t ht hd) (Or.inr (Or.inr hd))

/-- Two sends, one of which is acknowledged. -/
example : let ops := [.send .pure 0 0 3, .send .pure 0 0 3, .packet [0x23, 0x02, 0x40, 0x10, 0x02, 0x00, 0x00], .resume 1, .tick, .tick, .tick, .timer 0,
      .resume 0, .cancelled 0]
    (run init ops).sends.map (·.pc) = [.done (.ok false), .done (.ok true)] := by decide +kernel

theorem packetFor_eq (q src dst : Nat) (cmd : Msg) :
    packetFor q src dst cmd =
      constructZip (argKw (ZipHeader.args { ackRequest := true, cmd := true, secure := true, seq := q, src := src, dst := dst })) cmd := by
  have hkw : (fun n =>
    if n = "ackRequest" then some (boolVal true)
    else if n = "ackResponse" then some (boolVal false)
    else if n = "nackResponse" then some (boolVal false)
    else if n = "nackWaiting" then some (boolVal false)
    else if n = "nackQueueFull" then some (boolVal false)
    else if n = "nackOptionError" then some (boolVal false)
    else if n = "headerExtIncluded" then some (boolVal false)
    else if n = "zwCmdIncluded" then some (boolVal true)
    else if n = "moreInformation" then some (boolVal false)
    else if n = "secureOrigin" then some (boolVal true)
    else if n = "seqNo" then some (Val.num .pyint q)
    else if n = "sourceEP" then some (Val.num .pyint src)
    else if n = "destEP" then some (Val.num .pyint dst)
    else none) = argKw (ZipHeader.args { ackRequest := true, cmd := true, secure := true, seq := q, src := src, dst := dst }) := by
    funext n
    simp only [argKw, ZipHeader.args]
    by_cases h1 : n = "ackRequest"; · subst h1; rfl
    by_cases h2 : n = "ackResponse"; · subst h2; rfl
    by_cases h3 : n = "nackResponse"; · subst h3; rfl
    by_cases h4 : n = "nackWaiting"; · subst h4; rfl
    by_cases h5 : n = "nackQueueFull"; · subst h5; rfl
    by_cases h6 : n = "nackOptionError"; · subst h6; rfl
    by_cases h7 : n = "headerExtIncluded"; · subst h7; rfl
    by_cases h8 : n = "zwCmdIncluded"; · subst h8; rfl
    by_cases h9 : n = "moreInformation"; · subst h9; rfl
    by_cases h10 : n = "secureOrigin"; · subst h10; rfl
    by_cases h11 : n = "seqNo"; · subst h11; rfl
    by_cases h12 : n = "sourceEP"; · subst h12; rfl
    by_cases h13 : n = "destEP"; · subst h13; rfl
    simp only [h1, h2, h3, h4, h5, h6, h7, h8, h9, h10, h11, h12, h13, if_false, Option.map]
  simp only [packetFor, hkw]

theorem pure_packet (q : Nat) (h : q < 256) : ∃ b, (packetFor q 0 0 .pure).bind compose = .ok b := by
  obtain ⟨cb, hc⟩ : ∃ cb, compose .pure = .ok cb := ⟨_, rfl⟩
  obtain ⟨p, hp, hcomp, -⟩ := C06_zip_roundtrip { ackRequest := true, cmd := true, secure := true, seq := q, src := 0, dst := 0 }
    (show _ ∧ _ ∧ _ from ⟨h, by show 0 < 128; omega, by show 0 < 128; omega⟩) rfl .pure cb hc
  have e := packetFor_eq q 0 0 .pure
  rw [hp] at e
  exact ⟨_, by rw [show packetFor q 0 0 .pure = .ok p from e]; exact hcomp⟩

/-- The state after `n` sends on an unconnected socket that are not answered. -/
def unanswered (timeout : Nat) (s : State) (k due n : Nat) : State :=
  { s with
    seq := (s.seq + n) % 256
    ackQueue := s.ackQueue ++ (List.range n).map fun j => ((((s.seq + 1 + j) % 256 : Nat) : Int), s.sends.length + j)
    sends := s.sends ++ (List.range n).map fun j => ⟨(s.seq + 1 + j) % 256, .waiting, .pending, 0, false, s.now + timeout⟩
    keepAlive := some (k + n)
    timers := [(k + n, if n = 0 then due else s.now + 25)]
    nextTimer := k + n + 1 }

theorem set_new {d : Dict Int Nat} {k : Int} {v : Nat} (h : d.mem k = false) : d.set k v = d ++ [(k, v)] := by
  induction d with
  | nil => rfl
  | cons p d ih =>
    obtain ⟨k', v'⟩ := p
    simp only [Dict.mem, Dict.get?] at h
    simp only [Dict.set]
    split at h
    · cases h
    · rename_i hne
      rw [if_neg hne, ih h]
      rfl

theorem mem_append_false {d d' : Dict Int Nat} {k : Int} (h : d.mem k = false) (h' : ∀ p ∈ d', p.1 ≠ k) : Dict.mem (d ++ d') k = false := by
  induction d with
  | nil =>
    induction d' with
    | nil => rfl
    | cons p d' ih =>
      simp only [Dict.mem, Dict.get?, List.nil_append, if_neg (h' p (by simp))]
      exact ih fun q hq => h' q (by simp [hq])
  | cons p d ih =>
    simp only [Dict.mem, Dict.get?] at h
    simp only [Dict.mem, List.cons_append, Dict.get?]
    split at h
    · cases h
    · rename_i hne
      rw [if_neg hne]
      exact ih h

theorem run_unanswered (timeout : Nat) (s : State) (k due n : Nat) (hs : s.seq < 256) (hc : s.connected = false) (hk : s.keepAlive = some k) (ht : s.timers = [(k, due)]) (hn : s.nextTimer = k + 1)
    (hle : n ≤ 256) (hq : ∀ j < n, s.ackQueue.mem (((s.seq + 1 + j) % 256 : Nat) : Int) = false) :
    run s (List.replicate n (.send .pure 0 0 timeout)) = unanswered timeout s k due n := by
  induction n with
  | zero =>
    simp only [List.replicate_zero, unanswered, List.range_zero, List.map_nil, List.append_nil, Nat.add_zero, if_true, Nat.mod_eq_of_lt hs]
    show s = _
    rw [← hk, ← ht, ← hn]
  | succ n ih =>
    rw [List.replicate_succ', run_snoc, ih (by omega) (fun j hj => hq j (by omega))]
    have e1 : ((s.seq + n) % 256 + 1) % 256 = (s.seq + 1 + n) % 256 := by omega
    obtain ⟨b, hb⟩ := pure_packet ((s.seq + 1 + n) % 256) (by omega)
    have hm : (unanswered timeout s k due n).ackQueue.mem (((s.seq + 1 + n) % 256 : Nat) : Int) = false := by
      refine mem_append_false (hq n (by omega)) ?_
      intro p hp
      obtain ⟨j, hj, rfl⟩ := List.mem_map.1 hp
      have := List.mem_range.1 hj
      simp only [ne_eq, Int.ofNat_inj]
      omega
    have hl : (unanswered timeout s k due n).sends.length = s.sends.length + n := by simp [unanswered]
    simp only [step, send]
    rw [show ((unanswered timeout s k due n).seq + 1) % 256 = (s.seq + 1 + n) % 256 from e1, hb]
    have e2 : (s.seq + (n + 1)) % 256 = (s.seq + 1 + n) % 256 := by omega
    simp only [transmitAndWait, resetKeepAlive, transmit, show (unanswered timeout s k due n).connected = false from hc, if_false, hm, Bool.false_eq_true, set_new hm, hl]
    simp only [unanswered, State.now, e2, List.range_succ, List.map_append, List.map_cons, List.map_nil, List.append_assoc, Dict.erase, List.filter, ne_eq, not_true, decide_false, Dict.set,
      Nat.succ_ne_zero, if_false, Nat.add_assoc, hc]

/-! ## C30 -/

/-- **C30** as wanted: an acknowledgement for an outstanding send makes it return True. -/
def C30_statement : Prop :=
  ∀ (ops1 ops2 : List Op) (b : Bytes) (i q : Nat), Outstanding (run init ops1) i q → AckFor b q → .kill i ∉ ops2 →
    ∀ r, SendEnded (run (step (run init ops1) (.packet b)) ops2) i r → r = .ok true

/-- Send 0 is acknowledged just too late. -/
def late : List Op := [.send .pure 0 0 1, .tick, .timer 0, .resume 0, .packet [0x23, 0x02, 0x40, 0x10, 0x01, 0x00, 0x00]]

/-- 256 more sends are made before it has cleaned up, and then it removes the registration of the last one. -/
def stolen : List Op := late ++ List.replicate 256 (.send .pure 0 0 3) ++ [.cancelled 0]

/-- The state after `late` ... -/
def lateState : State := ⟨1, [], [⟨1, .cancelling, .received, 0, false, 1⟩], { Waiter.init with now := 1 }, false, some 0, [(0, 25)], 1, [], []⟩

/-- ... and before the end of `stolen`. -/
def manySends : State := unanswered 3 lateState 0 25 256

theorem run_stolen : run init stolen = step manySends (.cancelled 0) := by
  have e : run init late = lateState := by decide +kernel
  rw [stolen, run_snoc, run_append, e, run_unanswered 3 lateState 0 25 256 (by decide) rfl rfl rfl rfl (by omega) (fun j _ => rfl)]
  rfl

set_option maxRecDepth 100000 in
/-- **C30** fails in theory: see `stolen`. -/
theorem C30_violated : ¬ C30_statement := by
  intro h
  have e1 : (run init stolen).sends[256]? = some ⟨1, .waiting, .pending, 0, false, 4⟩ ∧ (run init stolen).now = 1 ∧
      (run (step (run init stolen) (.packet [0x23, 0x02, 0x40, 0x10, 0x01, 0x00, 0x00])) [.tick, .tick, .tick, .timer 256, .resume 256, .cancelled 256]).sends[256]? =
        some ⟨1, .done (.error .key), .pending, 0, false, 4⟩ := by
    rw [run_stolen]
    decide +kernel
  obtain ⟨e1, e2, e3⟩ := e1
  have ha : AckFor [0x23, 0x02, 0x40, 0x10, 0x01, 0x00, 0x00] 1 := by
    refine ⟨_, rfl, ?_⟩
    decide +kernel
  have := h stolen [.tick, .tick, .tick, .timer 256, .resume 256, .cancelled 256] [0x23, 0x02, 0x40, 0x10, 0x01, 0x00, 0x00] 256 1
    ⟨_, e1, rfl, by simp, by rw [e2]; decide⟩ ha (by simp) _ ⟨_, e3, rfl⟩
  cases this

/-- **C30**, what holds: if no other unfinished send had the same number when `send()` was called then a matching acknowledgement before the
timeout makes it return True, whatever else happens (unless the task is cancelled). -/
theorem C30_ack_completes_partial (ops0 ops1 ops2 : List Op) (cmd : Msg) (src dst : Int) (timeout : Nat) (b : Bytes) (q : Nat) :
    let s0 := run init ops0
    let i := s0.sends.length
    let s1 := run (step s0 (.send cmd src dst timeout)) ops1
    let s2 := run (step s1 (.packet b)) ops2
    NumberFree s0 ((i + 1) % 256) → Outstanding s1 i q → AckFor b q → .kill i ∉ ops2 →
    (∀ r, SendEnded s2 i r → r = .ok true) ∧ SendEnded (step s2 (.resume i)) i (.ok true) := by
  intro s0 i s1 s2 hf ho ha hk
  have hi0 : Inv s0 := inv_run ops0
  have hi1 : Inv s1 := (hi0.step _).run ops1
  obtain ⟨t, ht, rfl, hop, hnow⟩ := ho
  obtain ⟨t', ht', hm⟩ := Mine.run ops1 (hi0.step _) (Mine.send hi0 cmd src dst timeout hf)
  change s1.sends[i]? = some t' at ht'
  rw [ht] at ht'; cases ht'
  have hinv := hi1.sends i t ht
  have hpc : t.pc = .waiting := by
    cases hp : t.pc with
    | waiting => rfl
    | timedOut => have := hinv.2.1 (Or.inl hp); omega
    | cancelling => have := hinv.2.1 (Or.inr hp); omega
    | done r => exact absurd hp (hop r)
  have hg : Good (step s1 (.packet b)) i := by
    by_cases hr : t.status = .received
    · exact Good.step hi1 ⟨t, ht, Or.inl ⟨hr, hinv.2.2.2.1 hpc hr, Or.inl hpc⟩⟩ (by simp)
    · have hreg := (hm hop hr).1
      rw [(onPacket_ack ha hreg ht).1]
      exact ⟨t.received, Waiter.getElem?_set_some ht, Or.inl ⟨rfl, by simp [Send.received, hpc], Or.inl hpc⟩⟩
  have hg2 : Good s2 i := hg.run ops2 (hi1.step _) hk
  refine ⟨?_, hg2.resume⟩
  rintro r ⟨u, hu, hp⟩
  obtain ⟨u', hu', h⟩ := hg2
  rw [hu] at hu'; cases hu'
  rcases h with ⟨-, -, h | h⟩ | h
  · rw [hp] at h; cases h
  · rw [hp] at h; cases h
  · rw [hp] at h; injection h

/-- **C30.** A packet changes at most the call that is registered under its number. -/
theorem C30_no_other_partial (ops : List Op) (b : Bytes) (p : Msg) (hd : decode b = .ok p) (j : Nat) (t : Send) (ht : (run init ops).sends[j]? = some t)
    (hn : p.num? "seqNo" ≠ some (t.seq : Int)) : (step (run init ops) (.packet b)).sends[j]? = some t := by
  obtain ⟨t', ht', tr⟩ := step_send (run init ops) (.packet b) j t ht
  cases tr with
  | same => exact ht'
  | queued b q d p' x a1 a2 a3 a4 a5 a6 a7 a8 =>
    obtain ⟨u, b1, b2, -⟩ := (inv_run ops).own q j a8
    rw [ht] at b1; cases b1
    rw [hd] at a1; cases a1
    exact absurd (by rw [a5, ← b2]) hn
  | received b q p' a1 a2 a3 a4 a5 a6 a7 =>
    obtain ⟨u, b1, b2, -⟩ := (inv_run ops).own q j a6
    rw [ht] at b1; cases b1
    rw [hd] at a1; cases a1
    exact absurd (by rw [a5, ← b2]) hn

/-! ## C31 -/

theorem queued_delay (t : Send) (d : Int) : (t.queued d).delay.toNat = patience d := by
  simp only [Send.queued, patience]
  split <;> omega

theorem not_received_run (q i : Nat) : ∀ (ops : List Op) (s : State), Inv s → (∃ t, s.sends[i]? = some t ∧ t.seq = q ∧ t.status ≠ .received) →
    (∀ b, .packet b ∈ ops → ¬ AckFor b q) → ∃ t, (run s ops).sends[i]? = some t ∧ t.seq = q ∧ t.status ≠ .received := by
  intro ops
  induction ops with
  | nil => intro s _ h _; exact h
  | cons op ops ih =>
    intro s hi ⟨t, ht, hq, hs⟩ hb
    refine ih (step s op) (hi.step op) ?_ (fun b h => hb b (List.mem_cons_of_mem _ h))
    obtain ⟨t', ht', tr⟩ := step_send s op i t ht
    refine ⟨t', ht', ?_⟩
    cases tr with
    | same => exact ⟨hq, hs⟩
    | queued => exact ⟨hq, by simp [Send.queued]⟩
    | received b q' p a1 a2 a3 a4 a5 a6 a7 =>
      exfalso
      obtain ⟨u, b1, b2, -⟩ := hi.own q' i a6
      rw [ht] at b1; cases b1
      exact hb b (List.mem_cons_self ..) ⟨p, a1, a2, a3, a4, by rw [a5, ← b2, hq]⟩
    | timer => exact ⟨hq, hs⟩
    | rearm => exact ⟨hq, hs⟩
    | success => exact ⟨hq, hs⟩
    | giveUp => exact ⟨hq, hs⟩
    | failed => exact ⟨hq, hs⟩
    | raised => exact ⟨hq, hs⟩
    | killed => exact ⟨hq, hs⟩

/-- The state of an outstanding call that has not been acknowledged. -/
theorem outstanding_waiting (ops0 ops1 : List Op) (cmd : Msg) (src dst : Int) (timeout : Nat) (q : Nat) :
    let s0 := run init ops0
    let i := s0.sends.length
    let s1 := run (step s0 (.send cmd src dst timeout)) ops1
    NumberFree s0 ((i + 1) % 256) → (∀ b, .packet b ∈ ops1 → ¬ AckFor b q) → Outstanding s1 i q →
    Inv s1 ∧ ∃ t, s1.sends[i]? = some t ∧ t.seq = q ∧ t.pc = .waiting ∧ t.status ≠ .received ∧ s1.ackQueue.get? (q : Int) = some i := by
  intro s0 i s1 hf hb ho
  have hi0 : Inv s0 := inv_run ops0
  have hi1 : Inv s1 := (hi0.step _).run ops1
  obtain ⟨t, ht, rfl, hop, hnow⟩ := ho
  have hinv := hi1.sends i t ht
  have hpc : t.pc = .waiting := by
    cases hp : t.pc with
    | waiting => rfl
    | timedOut => have := hinv.2.1 (Or.inl hp); omega
    | cancelling => have := hinv.2.1 (Or.inr hp); omega
    | done r => exact absurd hp (hop r)
  have hr : t.status ≠ .received := by
    have hnew : ∃ u, (step s0 (.send cmd src dst timeout)).sends[i]? = some u ∧ u.seq = t.seq ∧ u.status ≠ .received := by
      have hsq : t.seq = (s0.seq + 1) % 256 := by
        rw [hi1.seqs i t ht, hi0.last]
        show (s0.sends.length + 1) % 256 = _
        omega
      rcases send_cases s0 cmd src dst timeout with ⟨e, -, -, hs⟩ | ⟨b, -, -, -, hs⟩ | ⟨b, -, -, -, hs⟩
      all_goals exact ⟨_, by simp only [Conn.step, hs]; exact List.getElem?_concat_length, hsq.symm, by simp⟩
    obtain ⟨u, hu, -, h⟩ := not_received_run t.seq i ops1 _ (hi0.step _) hnew hb
    change s1.sends[i]? = some u at hu
    rw [ht] at hu; cases hu
    exact h
  obtain ⟨t', ht', hm⟩ := Mine.run ops1 (hi0.step _) (Mine.send hi0 cmd src dst timeout hf)
  change s1.sends[i]? = some t' at ht'
  rw [ht] at ht'; cases ht'
  exact ⟨hi1, t, ht, rfl, hpc, hr, (hm hop hr).1⟩

theorem rearm_eq {s : State} {b : Bytes} {q i : Nat} {d : Int} {t : Send} (hw : WaitingFor b q d) (hreg : s.ackQueue.get? (q : Int) = some i)
    (ht : s.sends[i]? = some t) (hpc : t.pc = .waiting) :
    run s [.packet b, .resume i] = { s with sends := ((s.sends.set i (t.queued d)).set i
      ({ t.queued d with pc := .waiting, inner := false, deadline := s.now + (t.queued d).delay.toNat } : Send)) } := by
  show step (step s (.packet b)) (.resume i) = _
  rw [(onPacket_waiting hw hreg ht).1]
  simp only [step, Waiter.getElem?_set_some ht]
  rw [if_pos ⟨by simp [Send.queued, hpc], Or.inl hpc⟩, if_pos (by simp [Send.queued])]
  rfl

/-- **C31.** A "waiting" response to an outstanding send re-arms its timeout: when the caller runs again it sleeps for the expected delay plus 60 s (180 s
if the delay is negative), still registered under its number. -/
theorem C31_rearms (ops0 ops1 : List Op) (cmd : Msg) (src dst : Int) (timeout : Nat) (b : Bytes) (q : Nat) (d : Int) :
    let s0 := run init ops0
    let i := s0.sends.length
    let s1 := run (step s0 (.send cmd src dst timeout)) ops1
    let s2 := run s1 [.packet b, .resume i]
    NumberFree s0 ((i + 1) % 256) → (∀ b, .packet b ∈ ops1 → ¬ AckFor b q) → Outstanding s1 i q → WaitingFor b q d →
    ∃ t, s2.sends[i]? = some t ∧ t.seq = q ∧ t.pc = .waiting ∧ t.deadline = s1.now + patience d ∧ s2.now = s1.now ∧ s2.ackQueue.get? (q : Int) = some i := by
  intro s0 i s1 s2 hf hb ho hw
  obtain ⟨hi1, t, ht, hq, hpc, hr, hreg⟩ := outstanding_waiting ops0 ops1 cmd src dst timeout q hf hb ho
  have e : s2 = { s1 with sends := ((s1.sends.set i (t.queued d)).set i
      ({ t.queued d with pc := .waiting, inner := false, deadline := s1.now + (t.queued d).delay.toNat } : Send)) } :=
    rearm_eq hw hreg ht hpc
  refine ⟨{ t.queued d with pc := .waiting, inner := false, deadline := s1.now + (t.queued d).delay.toNat }, ?_, hq, rfl, ?_, ?_, ?_⟩
  · rw [e]
    exact Waiter.getElem?_set_some (Waiter.getElem?_set_some ht)
  · show s1.now + (t.queued d).delay.toNat = _
    rw [queued_delay]
  · rw [e]; rfl
  · rw [e]; exact hreg

/-- What is known about a call that has been told to wait at time `T`, as long as every response asks it to wait for at least `D`. -/
def Patient (s : State) (i q T D : Nat) : Prop :=
  ∃ t, s.sends[i]? = some t ∧ t.seq = q ∧ T ≤ s.now ∧
    ((t.status = .queued ∧ D ≤ t.delay.toNat ∧ (t.inner = true ∧ (t.pc = .waiting ∨ t.pc = .timedOut) ∨ t.pc = .waiting ∧ T + D ≤ t.deadline)) ∨
      T + D ≤ s.now)

theorem Patient.step {s : State} {i q T D : Nat} (hi : Inv s) (h : Patient s i q T D) {op : Op} (h1 : op ≠ .kill i)
    (h2 : ∀ b, op = .packet b → ¬ AckFor b q ∧ ∀ d, WaitingFor b q d → D ≤ patience d) : Patient (step s op) i q T D := by
  obtain ⟨t, ht, hq, hT, h⟩ := h
  obtain ⟨t', ht', tr⟩ := step_send s op i t ht
  have hn := step_now s op
  have hq' : t'.seq = q := by cases tr <;> exact hq
  refine ⟨t', ht', hq', Nat.le_trans hT hn, ?_⟩
  rcases h with ⟨hs, hd, h⟩ | h
  · cases tr with
    | same => exact Or.inl ⟨hs, hd, h⟩
    | queued b v d p x a1 a2 a3 a4 a5 a6 a7 a8 =>
      left
      obtain ⟨u, b1, b2, -⟩ := hi.own v i a8
      rw [ht] at b1; cases b1
      refine ⟨rfl, ?_, ?_⟩
      · rw [queued_delay]
        exact (h2 b rfl).2 d ⟨p, x, a1, a2, a3, a4, by rw [a5, ← b2, hq], a6, a7⟩
      · rcases h with ⟨h, hp⟩ | ⟨hp, h⟩
        · exact Or.inl ⟨by simp [Send.queued, h], hp⟩
        · exact Or.inl ⟨by simp [Send.queued, hp], Or.inl hp⟩
    | received b v p a1 a2 a3 a4 a5 a6 a7 =>
      exfalso
      obtain ⟨u, b1, b2, -⟩ := hi.own v i a6
      rw [ht] at b1; cases b1
      exact (h2 b rfl).1 ⟨p, a1, a2, a3, a4, by rw [a5, ← b2, hq]⟩
    | timer a1 a2 =>
      rcases h with ⟨h, hp⟩ | ⟨hp, h⟩
      · exact Or.inl ⟨hs, hd, Or.inl ⟨h, Or.inr rfl⟩⟩
      · right; omega
    | rearm a1 a2 a3 => exact Or.inl ⟨hs, hd, Or.inr ⟨rfl, by show T + D ≤ s.now + t.delay.toNat; omega⟩⟩
    | success a1 a2 a3 => exact absurd hs a3
    | giveUp a1 a2 =>
      rcases h with ⟨h, -⟩ | ⟨h, -⟩
      · rw [h] at a1; cases a1
      · rw [h] at a2; cases a2
    | failed a1 =>
      rcases h with ⟨-, h | h⟩ | ⟨h, -⟩ <;> rw [h] at a1 <;> cases a1
    | raised a1 =>
      rcases h with ⟨-, h | h⟩ | ⟨h, -⟩ <;> rw [h] at a1 <;> cases a1
    | killed => exact absurd rfl h1
  · right; omega

theorem Patient.run {i q T D : Nat} : ∀ (ops : List Op) {s : State}, Inv s → Patient s i q T D → .kill i ∉ ops →
    (∀ b, .packet b ∈ ops → ¬ AckFor b q ∧ ∀ d, WaitingFor b q d → D ≤ patience d) → Patient (run s ops) i q T D := by
  intro ops
  induction ops with
  | nil => intro s _ h _ _; exact h
  | cons op ops ih =>
    intro s hi h h1 h2
    simp only [List.mem_cons, not_or] at h1
    exact ih (hi.step op) (h.step hi (fun e => h1.1 e.symm) (fun b e => h2 b (by rw [e]; exact List.mem_cons_self ..))) h1.2
      (fun b e => h2 b (List.mem_cons_of_mem _ e))

/-- **C31.** However many "waiting" responses arrive, and whatever else happens (but no acknowledgement and no cancellation): if all of them ask for at least
`D` seconds then the call does not end during the `D` seconds after the first one. -/
theorem C31_keeps_pending (ops0 ops1 ops2 : List Op) (cmd : Msg) (src dst : Int) (timeout : Nat) (b : Bytes) (q D : Nat) (d : Int) :
    let s0 := run init ops0
    let i := s0.sends.length
    let s1 := run (step s0 (.send cmd src dst timeout)) ops1
    let s2 := run (step s1 (.packet b)) ops2
    NumberFree s0 ((i + 1) % 256) → (∀ b, .packet b ∈ ops1 → ¬ AckFor b q) → Outstanding s1 i q → WaitingFor b q d → D ≤ patience d →
    .kill i ∉ ops2 → (∀ b, .packet b ∈ ops2 → ¬ AckFor b q ∧ ∀ d', WaitingFor b q d' → D ≤ patience d') →
    s2.now < s1.now + D → ∀ r, ¬ SendEnded s2 i r := by
  intro s0 i s1 s2 hf hb ho hw hD hk h2 hnow r
  obtain ⟨hi1, t, ht, hq, hpc, hr, hreg⟩ := outstanding_waiting ops0 ops1 cmd src dst timeout q hf hb ho
  have hp : Patient (step s1 (.packet b)) i q s1.now D := by
    refine ⟨t.queued d, ?_, hq, step_now s1 _, Or.inl ⟨rfl, by rw [queued_delay]; exact hD, Or.inl ⟨by simp [Send.queued, hpc], Or.inl hpc⟩⟩⟩
    rw [(onPacket_waiting hw hreg ht).1]
    exact Waiter.getElem?_set_some ht
  obtain ⟨u, hu, -, -, h⟩ := Patient.run ops2 (hi1.step _) hp hk h2
  rintro ⟨u', hu', hpc'⟩
  change s2.sends[i]? = some u at hu
  rw [hu] at hu'; cases hu'
  rcases h with ⟨-, -, ⟨-, h | h⟩ | ⟨h, -⟩⟩ | h
  · rw [hpc'] at h; cases h
  · rw [hpc'] at h; cases h
  · rw [hpc'] at h; cases h
  · change s1.now + D ≤ s2.now at h; omega

/-- **C30.** A call that has been told to wait is completed by an acknowledgement within the patience it was asked for, whatever happened in between: in particular
also when its first timeout ends after the "waiting" response and before the caller runs. -/
theorem C30_after_waiting_partial (ops0 ops1 ops2 ops3 : List Op) (cmd : Msg) (src dst : Int) (timeout : Nat) (b b' : Bytes) (q D : Nat) (d : Int) :
    let s0 := run init ops0
    let i := s0.sends.length
    let s1 := run (step s0 (.send cmd src dst timeout)) ops1
    let s2 := run (step s1 (.packet b)) ops2
    let s3 := run (step s2 (.packet b')) ops3
    NumberFree s0 ((i + 1) % 256) → (∀ b, .packet b ∈ ops1 → ¬ AckFor b q) → Outstanding s1 i q → WaitingFor b q d → D ≤ patience d →
    .kill i ∉ ops2 → (∀ b, .packet b ∈ ops2 → ¬ AckFor b q ∧ ∀ d', WaitingFor b q d' → D ≤ patience d') →
    s2.now < s1.now + D → AckFor b' q → .kill i ∉ ops3 →
    (∀ r, SendEnded s3 i r → r = .ok true) ∧ SendEnded (step s3 (.resume i)) i (.ok true) := by
  intro s0 i s1 s2 s3 hf hb ho hw hD hk h2 hnow ha hk3
  obtain ⟨hi1, t, ht, hq, hpc, hr, hreg⟩ := outstanding_waiting ops0 ops1 cmd src dst timeout q hf hb ho
  have hp : Patient (step s1 (.packet b)) i q s1.now D := by
    refine ⟨t.queued d, ?_, hq, step_now s1 _, Or.inl ⟨rfl, by rw [queued_delay]; exact hD, Or.inl ⟨by simp [Send.queued, hpc], Or.inl hpc⟩⟩⟩
    rw [(onPacket_waiting hw hreg ht).1]
    exact Waiter.getElem?_set_some ht
  have hi2 : Inv s2 := (hi1.step _).run ops2
  obtain ⟨u, hu, huq, -, h⟩ := Patient.run ops2 (hi1.step _) hp hk h2
  change s2.sends[i]? = some u at hu
  have hm2 : Mine s2 i := (Mine.run ops2 (hi1.step _) ((Mine.run ops1 ((inv_run ops0).step _) (Mine.send (inv_run ops0) cmd src dst timeout hf)).step hi1 _))
  obtain ⟨u', hu', hm⟩ := hm2
  rw [hu] at hu'; cases hu'
  have hg : Good (step s2 (.packet b')) i := by
    rcases h with ⟨hs, -, h⟩ | h
    · have hop : ∀ r, u.pc ≠ .done r := by
        intro r e
        rcases h with ⟨-, h | h⟩ | ⟨h, -⟩ <;> rw [e] at h <;> cases h
      have hreg2 := (hm hop (by rw [hs]; simp)).1
      rw [huq] at hreg2
      rw [(onPacket_ack ha hreg2 hu).1]
      refine ⟨u.received, Waiter.getElem?_set_some hu, Or.inl ⟨rfl, ?_, ?_⟩⟩
      · rcases h with ⟨h, -⟩ | ⟨h, -⟩ <;> simp [Send.received, h]
      · rcases h with ⟨-, h⟩ | ⟨h, -⟩
        · exact h
        · exact Or.inl h
    · change s1.now + D ≤ s2.now at h; omega
  have hg3 : Good s3 i := hg.run ops3 (hi2.step _) hk3
  refine ⟨?_, hg3.resume⟩
  rintro r ⟨u, hu, hp⟩
  obtain ⟨u', hu', h⟩ := hg3
  rw [hu] at hu'; cases hu'
  rcases h with ⟨-, -, h | h⟩ | h
  · rw [hp] at h; cases h
  · rw [hp] at h; cases h
  · rw [hp] at h; injection h

/-- Told to wait just before the timer fires, acknowledged before the caller runs. -/
example : let ops := [.send .pure 0 0 1, .tick, .packet [0x23, 0x02, 0x30, 0x90, 0x01, 0x00, 0x00, 0x06, 0x01, 0x03, 0x00, 0x00, 0x05], .timer 0, .packet [0x23, 0x02, 0x40, 0x10, 0x01, 0x00, 0x00],
      .resume 0]
    (run init ops).sends.map (·.pc) = [.done (.ok true)] := by decide +kernel

/-- A "waiting" response with an expected delay of 5 s; 65 s later the send fails, but an acknowledgement after 60 s makes it succeed. -/
example : let nack : Bytes := [0x23, 0x02, 0x30, 0x90, 0x01, 0x00, 0x00, 0x06, 0x01, 0x03, 0x00, 0x00, 0x05]
    let ack : Bytes := [0x23, 0x02, 0x40, 0x10, 0x01, 0x00, 0x00]
    let ops := [.send .pure 0 0 3, .tick, .packet nack, .resume 0] ++ List.replicate 60 .tick
    (run init (ops ++ [.timer 0, .packet ack, .resume 0])).sends.map (·.pc) = [.done (.ok true)] ∧
    (run init (ops ++ List.replicate 5 .tick ++ [.timer 0, .resume 0, .cancelled 0])).sends.map (·.pc) = [.done (.ok false)] := by decide +kernel

/-! ## C32 -/

/-- **C32.** In every reachable state every registered number belongs to a call of `send()` with that number that has not ended, or whose
task was cancelled from outside. -/
theorem C32_registered (ops : List Op) (v : Int) (i : Nat) (h : (run init ops).ackQueue.get? v = some i) :
    ∃ t, (run init ops).sends[i]? = some t ∧ (t.seq : Int) = v ∧ ((∀ r, t.pc ≠ .done r) ∨ t.pc = .done (.error .cancelled)) := by
  obtain ⟨t, h1, h2, -, h3⟩ := (inv_run ops).own v i h
  exact ⟨t, h1, h2, h3⟩

/-- **C32.** So a number can be used again: if every earlier send with the next number has ended (not by cancellation), then the next call of `send()` (with
a command that can be composed) is not refused, it waits. -/
theorem C32_reusable (ops : List Op) (cmd : Msg) (src dst : Int) (timeout : Nat) (b : Bytes) :
    let s := run init ops
    let q := (s.sends.length + 1) % 256
    (∀ (j : Nat) (u : Send), s.sends[j]? = some u → u.seq = q → ∃ r, u.pc = .done r ∧ r ≠ .error .cancelled) →
    (packetFor q src dst cmd).bind compose = .ok b →
    ∃ t, (step s (.send cmd src dst timeout)).sends[s.sends.length]? = some t ∧ t.pc = .waiting ∧ t.seq = q := by
  intro s q hf hc
  have hi := inv_run ops
  have hq : (s.seq + 1) % 256 = q := by rw [show s.seq = s.sends.length % 256 from hi.last]; show _ = (s.sends.length + 1) % 256; omega
  rcases send_cases s cmd src dst timeout with ⟨e, he, -, -⟩ | ⟨b', -, hm, -, -⟩ | ⟨b', -, -, -, hs⟩
  · rw [hq, hc] at he; cases he
  · exfalso
    rw [hq] at hm
    cases hg : s.ackQueue.get? (q : Int) with
    | none => simp [Dict.mem, hg] at hm
    | some j =>
      obtain ⟨t, h1, h2, -, h3⟩ := hi.own _ _ hg
      obtain ⟨r, hr, hne⟩ := hf j t h1 (by omega)
      rcases h3 with h3 | h3
      · exact h3 r hr
      · rw [hr] at h3; injection h3 with h3; exact hne h3
  · exact ⟨_, by simp only [Conn.step, hs]; exact List.getElem?_concat_length, rfl, hq⟩

/-- 256 sends that time out one after the other: number 1 can be used again. -/
example : let one (i : Nat) : List Op := [.send .pure 0 0 1, .tick, .timer i, .resume i, .cancelled i]
    (run init (one 0 ++ one 1 ++ one 2)).ackQueue = [] ∧ (run init (one 0 ++ one 1 ++ one 2)).sends.map (·.pc) =
      [.done (.ok false), .done (.ok false), .done (.ok false)] := by decide +kernel

/-! ## C33 -/

/-- **C33.** The numbers of consecutive sends are consecutive modulo 256 and fit in a byte. -/
theorem C33_consecutive (ops : List Op) (k : Nat) (t : Send) (h : (run init ops).sends[k]? = some t) : t.seq = (k + 1) % 256 ∧ t.seq < 256 := by
  have := (inv_run ops).seqs k t h
  exact ⟨this, by rw [this]; omega⟩

/-- **C33.** Any 256 consecutive sends have pairwise different numbers. -/
theorem C33_distinct (ops : List Op) (j k : Nat) (t u : Send) (hj : (run init ops).sends[j]? = some t) (hk : (run init ops).sends[k]? = some u)
    (h1 : j < k) (h2 : k < j + 256) : t.seq ≠ u.seq := by
  rw [(inv_run ops).seqs j t hj, (inv_run ops).seqs k u hk]
  omega

/-- **C33.** On a connected socket `send()` transmits exactly one datagram: the Z/IP header with an ack request, its number and the two end points, followed by the
command. -/
theorem C33_transmitted (ops : List Op) (cmd : Msg) (cb : Bytes) (src dst timeout : Nat) (hc : compose cmd = .ok cb) (hs : src < 128) (hd : dst < 128)
    (hcon : (run init ops).connected = true) :
    (step (run init ops) (.send cmd src dst timeout)).out = (run init ops).out ++
      [ZipHeader.bytes { ackRequest := true, cmd := true, secure := true, seq := ((run init ops).sends.length + 1) % 256, src := src, dst := dst } ++ cb] := by
  generalize hS : run init ops = s at hcon
  have hi : Inv s := by rw [← hS]; exact inv_run ops
  have hq : (s.seq + 1) % 256 = (s.sends.length + 1) % 256 := by rw [hi.last]; omega
  obtain ⟨p, hp, hcomp, -⟩ := C06_zip_roundtrip { ackRequest := true, cmd := true, secure := true, seq := (s.sends.length + 1) % 256, src := src, dst := dst }
    (show _ ∧ _ ∧ _ from ⟨by show (s.sends.length + 1) % 256 < 256; omega, hs, hd⟩) rfl cmd cb hc
  have hpk : (packetFor ((s.seq + 1) % 256) src dst cmd).bind compose =
      .ok (ZipHeader.bytes { ackRequest := true, cmd := true, secure := true, seq := (s.sends.length + 1) % 256, src := src, dst := dst } ++ cb) := by
    rw [hq, packetFor_eq, hp]
    exact hcomp
  simp only [step, send, hpk, transmitAndWait]
  split <;> simp only [resetKeepAlive, transmit, hcon, if_true]

theorem ok_bind {α β : Type} (a : α) (f : α → Py β) : Except.bind (.ok a) f = f a := rfl

theorem uncomposable (q : Nat) (cmd : Msg) (e : PyErr) (src dst : Nat) (hc : compose cmd = .error e) (hq : q < 256) (hs : src < 128) (hd : dst < 128) :
    (packetFor q src dst cmd).bind compose = .error e := by
  obtain ⟨attrs, he, hb⟩ := zip_compose_bind { ackRequest := true, cmd := true, secure := true, seq := q, src := src, dst := dst } (show _ ∧ _ ∧ _ from ⟨hq, hs, hd⟩)
  have : packetFor q src dst cmd = .ok (.wrap 0x2302 attrs cmd) := by
    rw [packetFor_eq]
    unfold constructZip
    rw [he]
    rfl
  rw [this, ok_bind, hb cmd, hc]
  rfl

/-- **C33.** If the command cannot be composed, `send()` raises the exception of composing it. Nothing is transmitted and nothing is registered; only the number is used. -/
theorem C33_uncomposable (ops : List Op) (cmd : Msg) (e : PyErr) (src dst timeout : Nat) (hc : compose cmd = .error e) (hs : src < 128) (hd : dst < 128) :
    let s := run init ops
    SendEnded (step s (.send cmd src dst timeout)) s.sends.length (.error e) ∧
    step s (.send cmd src dst timeout) =
      { s with seq := (s.sends.length + 1) % 256, sends := (step s (.send cmd src dst timeout)).sends } ∧
    (step s (.send cmd src dst timeout)).sends.take s.sends.length = s.sends := by
  intro s
  have hi : Inv s := inv_run ops
  clear_value s
  have hq : (s.seq + 1) % 256 = (s.sends.length + 1) % 256 := by rw [hi.last]; omega
  have hpk := uncomposable ((s.sends.length + 1) % 256) cmd e src dst hc (by omega) hs hd
  have hst : step s (.send cmd src dst timeout) = { s with seq := (s.sends.length + 1) % 256, sends := s.sends ++ [⟨(s.sends.length + 1) % 256, .done (.error e), .pending, 0, false, 0⟩] } := by
    simp only [step, send, hq, hpk, transmitAndWait]
  rw [hst]
  exact ⟨⟨_, List.getElem?_concat_length, rfl⟩, rfl, by simp⟩

/-- A value that does not fit into its byte. -/
example : compose (.known 0x2501 [("value", .num (.uint 1) 300)]) = .error .overflow ∧
    (run init [.connect, .send (.known 0x2501 [("value", .num (.uint 1) 300)]) 0 0 3, .send (.known 0x2502 []) 0 0 3]).sends.map (fun t => (t.seq, t.pc)) =
      [(1, .done (.error .overflow)), (2, .waiting)] := by decide +kernel

/-- **C33.** A send whose number is still registered raises and leaves the registration alone. -/
theorem C33_number_taken (s : State) (cmd : Msg) (src dst : Int) (timeout : Nat) (h : s.ackQueue.mem (((s.seq + 1) % 256 : Nat) : Int) = true) :
    (step s (.send cmd src dst timeout)).ackQueue = s.ackQueue ∧ ∃ e, SendEnded (step s (.send cmd src dst timeout)) s.sends.length (.error e) := by
  rcases send_cases s cmd src dst timeout with ⟨e, -, hq, hs⟩ | ⟨b, -, -, hq, hs⟩ | ⟨b, -, hm, -, -⟩
  · exact ⟨hq, e, _, by simp only [Conn.step, hs]; exact List.getElem?_concat_length, rfl⟩
  · exact ⟨hq, .duplicateAck, _, by simp only [Conn.step, hs]; exact List.getElem?_concat_length, rfl⟩
  · rw [h] at hm; cases hm

set_option maxRecDepth 100000 in
/-- 257 sends without any response: the last one is refused. -/
example : ((run init (List.replicate 257 (.send .pure 0 0 3))).sends.map (·.pc))[256]? = some (.done (.error .duplicateAck)) ∧
    ((run init (List.replicate 257 (.send .pure 0 0 3))).sends.map (·.pc))[255]? = some .waiting := by
  have e0 : step init (.send .pure 0 0 3) = ⟨1, [(1, 0)], [⟨1, .waiting, .pending, 0, false, 3⟩], Waiter.init, false, some 0, [(0, 25)], 1, [], []⟩ := by decide +kernel
  have e : run init (List.replicate 257 (.send .pure 0 0 3)) =
      step (unanswered 3 ⟨1, [(1, 0)], [⟨1, .waiting, .pending, 0, false, 3⟩], Waiter.init, false, some 0, [(0, 25)], 1, [], []⟩ 0 25 255) (.send .pure 0 0 3) := by
    have : List.replicate 257 (Op.send .pure 0 0 3) = [.send .pure 0 0 3] ++ List.replicate 255 (.send .pure 0 0 3) ++ [.send .pure 0 0 3] := by decide +kernel
    rw [this, run_snoc, run_append, show run init [.send .pure 0 0 3] = step init (.send .pure 0 0 3) from rfl, e0, run_unanswered 3 _ 0 25 255 (by decide) rfl rfl rfl rfl (by omega)]
    intro j hj
    simp only [Dict.mem, Dict.get?]
    rw [if_neg (by omega)]
    rfl
  rw [e]
  decide +kernel

/-! ## C34 -/

/-- **C34.** A datagram that cannot be decoded has no effect in any state and is reported as not handled. -/
theorem C34_undecodable (s : State) (b : Bytes) (e : PyErr) (h : decode b = .error e) : onPacket s b = (s, .ok false) := by
  simp only [onPacket, h]

example : ∃ e, decode [0x23, 0x02, 0x80, 0xC0, 0x01, 0x00, 0x00, 0x05, 0x81, 0x04, 0x00, 0x00, 0x20, 0x02] = .error e := ⟨.eof, by decide +kernel⟩

/-! ## C35 -/

/-- A Z/IP packet that is no response and no request for one, with a command. -/
def CarriesCommand (p : Msg) (c : Msg) : Prop :=
  p.hid = 0x2302 ∧ p.flag "ackResponse" = false ∧ p.flag "nackResponse" = false ∧ p.flag "ackRequest" = false ∧ p.flag "zwCmdIncluded" = true ∧ p.command = some c

/-- Exactly one delivery: to the listeners, or to the session of a waiting caller. -/
def DeliveredOnce (s s' : State) (p c : Msg) : Prop :=
  (s'.heard = s.heard ++ [p] ∧ s'.w = s.w) ∨
  (s'.heard = s.heard ∧ ∃ f, s.w.sessions.get? c.hid = some f ∧ s.w.futs[f]? = some .pending ∧ s'.w.futs = s.w.futs.set f (.result c))

/-- **C35**, the main part: commands are delivered exactly once. -/
def C35_statement : Prop :=
  ∀ (ops : List Op) (b : Bytes) (p c : Msg), decode b = .ok p → CarriesCommand p c → DeliveredOnce (run init ops) (onPacket (run init ops) b).1 p c

/-- **C35** fails: a command that arrives while the caller waiting for it is timing out is not delivered at all (InvalidStateError, as in C39). -/
theorem C35_violated : ¬ C35_statement := by
  intro h
  have := h [.waiter (.call .plain 0x2503 1), .tick, .waiter (.timer 0), .waiter (.resume 0)] [0x23, 0x02, 0x00, 0x50, 0x07, 0x00, 0x00, 0x25, 0x03, 0xFF]
    _ _ rfl ⟨by decide +kernel, by decide +kernel, by decide +kernel, by decide +kernel, by decide +kernel, rfl⟩
  rcases this with ⟨h, -⟩ | ⟨-, f, h1, h2, -⟩
  · have h' := congrArg List.length h
    revert h'; decide +kernel
  · have e : f = 0 := by
      rw [show (Msg.hid _ : Nat) = 0x2503 from rfl] at h1
      have h1' : (run init [.waiter (.call .plain 0x2503 1), .tick, .waiter (.timer 0), .waiter (.resume 0)]).w.sessions.get? 0x2503 = some 0 := by decide +kernel
      rw [h1'] at h1; injection h1 with h1; exact h1.symm
    subst e
    revert h2; decide +kernel

/-- **C35**, commands: delivered exactly once unless the registered session for the type is cancelled (its caller is just timing out). -/
theorem C35_command_partial (s : State) (b : Bytes) (p c : Msg) (hd : decode b = .ok p) (hc : CarriesCommand p c)
    (hs : ∀ f, s.w.sessions.get? c.hid = some f → s.w.futs[f]? = some .pending) :
    DeliveredOnce s (onPacket s b).1 p c ∧ (onPacket s b).2 = .ok true ∧ (onPacket s b).1.sends = s.sends ∧ (onPacket s b).1.ackQueue = s.ackQueue := by
  obtain ⟨h1, h2, h3, h4, h5, h6⟩ := hc
  cases hg : s.w.sessions.get? c.hid with
  | none =>
    have hm : Waiter.messageReceived s.w c = (s.w, .ok false) := by simp only [Waiter.messageReceived, hg]
    have : onPacket s b = ({ s with heard := s.heard ++ [p] }, .ok true) := by
      simp only [onPacket, hd, h1, h2, h3, h4, h5, if_true, commandReceived, h6, hm]
      rfl
    rw [this]
    exact ⟨Or.inl ⟨rfl, rfl⟩, rfl, rfl, rfl⟩
  | some f =>
    have hp := hs f hg
    have hm : Waiter.messageReceived s.w c = ({ s.w with sessions := s.w.sessions.erase c.hid, futs := s.w.futs.set f (.result c) }, .ok true) := by
      simp only [Waiter.messageReceived, hg, hp]
    have : onPacket s b = ({ s with w := { s.w with sessions := s.w.sessions.erase c.hid, futs := s.w.futs.set f (.result c) } }, .ok true) := by
      simp only [onPacket, hd, h1, h2, h3, h4, h5, if_true, commandReceived, h6, hm]
      rfl
    rw [this]
    exact ⟨Or.inr ⟨rfl, f, hg, hp, rfl⟩, rfl, rfl, rfl⟩

/-- **C35**, responses: never delivered as commands. -/
theorem C35_responses_partial (s : State) (b : Bytes) (p : Msg) (hd : decode b = .ok p) (hz : p.hid = 0x2302)
    (h : p.flag "ackResponse" = true ∨ p.flag "nackResponse" = true) : (onPacket s b).1.heard = s.heard ∧ (onPacket s b).1.w = s.w := by
  have ha : (ackReceived s p).1.heard = s.heard ∧ (ackReceived s p).1.w = s.w := by
    simp only [ackReceived]
    split
    · split
      · exact ⟨rfl, rfl⟩
      · split
        · exact ⟨rfl, rfl⟩
        · split
          · split <;> exact ⟨rfl, rfl⟩
          · exact ⟨rfl, rfl⟩
    · split
      · exact ⟨rfl, rfl⟩
      · split
        · exact ⟨rfl, rfl⟩
        · split <;> exact ⟨rfl, rfl⟩
  simp only [onPacket, hd, hz, if_true]
  cases hr : ackReceived s p with
  | mk s' r =>
    rw [hr] at ha
    split
    · cases r <;> exact ha
    · split
      · split
        · cases r <;> exact ha
        · exact ⟨rfl, rfl⟩
      · rename_i h1 h2
        rcases h with h | h
        · exact absurd h h1
        · exact absurd h h2

/-- **C35**, the rest: other negative responses, ack requests, keep-alives and unknown packets change nothing. -/
theorem C35_ignored_partial (s : State) (b : Bytes) (p : Msg) (hd : decode b = .ok p)
    (h : (p.hid = 0x2302 ∧ p.flag "ackResponse" = false ∧ ((p.flag "nackResponse" = true ∧ p.flag "nackWaiting" = false) ∨
        (p.flag "nackResponse" = false ∧ p.flag "ackRequest" = true))) ∨ (p.hid ≠ 0x2302 ∧ p.hid ≠ 0x5801)) :
    (onPacket s b).1 = s ∧ ((onPacket s b).2 = .ok true → p.hid = 0x2303 ∧ p.flag "ackResponse" = true) := by
  rcases h with ⟨h1, h2, ⟨h3, h4⟩ | ⟨h3, h4⟩⟩ | ⟨h1, h2⟩
  · simp [onPacket, hd, h1, h2, h3, h4]
  · simp [onPacket, hd, h1, h2, h3, h4]
  · by_cases h3 : p.hid = 0x2303
    · simp [onPacket, hd, h3]
    · simp [onPacket, hd, h1, h2, h3]

example : let s := run init [.waiter (.call .plain 0x2503 3)]
    (onPacket s [0x23, 0x02, 0x00, 0x50, 0x07, 0x00, 0x00, 0x25, 0x03, 0xFF]).1.w.futs.length = 1 ∧
    (onPacket s [0x23, 0x02, 0x00, 0x50, 0x07, 0x00, 0x00, 0x25, 0x03, 0xFF]).1.heard = [] ∧
    (onPacket s [0x23, 0x02, 0x00, 0x50, 0x07, 0x00, 0x00, 0x20, 0x01, 0xFF]).1.heard.length = 1 := by decide +kernel

/-! ## C36 -/

/-- **C36** as wanted: no "waiting" response raises out of `onPacket`. -/
def C36_statement : Prop :=
  ∀ (ops : List Op) (b : Bytes) (p : Msg), decode b = .ok p → p.hid = 0x2302 → p.flag "nackResponse" = true → p.flag "nackWaiting" = true →
    ∀ e, (onPacket (run init ops) b).2 ≠ .error e

/-- **C36** fails: seven bytes, no header extension, for an outstanding send: AttributeError. -/
theorem C36_violated : ¬ C36_statement := by
  intro h
  exact h [.send .pure 0 0 3] [0x23, 0x02, 0x30, 0x10, 0x01, 0x00, 0x00] _ rfl (by decide +kernel) (by decide +kernel) (by decide +kernel) .attribute
    (by decide +kernel)

/-- **C36**, what holds: with a header extension made of well-formed known options (with or without an expected delay, with or without a command) nothing
is raised, the packet is handled, and if the number is registered the expected delay of the extension (0 if it has none) is used. -/
theorem C36_with_extension_partial (s : State) (h : ZipHeader) (hf : h.Fits) (hx : h.ext = true) (hn : h.nackResponse = true) (hw : h.nackWaiting = true)
    (os : List (Bool × HdrOption)) (ho : ∀ o ∈ os, o.2.WellFormed) (hl : (optionsWire os).length < 255) (cmd : Bytes) (c : Msg) (hc : decode cmd = .ok c)
    (hown : ∀ (v : Int) (i : Nat), s.ackQueue.get? v = some i → ∃ t, s.sends[i]? = some t) :
    let b := h.bytes ++ UInt8.ofNat ((optionsWire os).length + 1) :: (optionsWire os ++ cmd)
    WaitingFor b h.seq (announcedDelay os) ∧ (onPacket s b).2 = .ok true ∧
    (∀ i t, s.ackQueue.get? (h.seq : Int) = some i → s.sends[i]? = some t → (onPacket s b).1 = { s with sends := s.sends.set i (t.queued (announcedDelay os)) }) ∧
    (s.ackQueue.get? (h.seq : Int) = none → (onPacket s b).1 = s) := by
  intro b
  obtain ⟨m, dict, hd, hdes, hattr, hdelay, -, -⟩ := C14_expected_delay h hf hx os ho hl cmd c hc
  obtain ⟨d1, -, d3, d4, d5, -, -, -, -, -, -, d12, -⟩ := hdes
  have hwf : WaitingFor b h.seq (announcedDelay os) := ⟨m, dict, hd, d1, by rw [d4, hn], by rw [d5, hw], d12, hattr, hdelay⟩
  have hnone : s.ackQueue.get? (h.seq : Int) = none → onPacket s b = (s, .ok true) := by
    intro hg
    have hr : ackReceived s m = (s, .ok false) := by
      simp only [ackReceived, d4, d5, hn, hw, and_self, if_true, lookup, d12, hg]
    simp only [onPacket, show decode b = .ok m from hd, d1, if_true, d4, d5, hn, hw, hr, ite_self]
  refine ⟨hwf, ?_, ?_, ?_⟩
  · cases hg : s.ackQueue.get? (h.seq : Int) with
    | none => rw [hnone hg]
    | some i =>
      obtain ⟨t, ht⟩ := hown _ _ hg
      exact (onPacket_waiting hwf hg ht).2
  · intro i t hg ht
    exact (onPacket_waiting hwf hg ht).1
  · intro hg
    rw [hnone hg]

/-- Every reachable state meets the last hypothesis. -/
example (ops : List Op) : ∀ (v : Int) (i : Nat), (run init ops).ackQueue.get? v = some i → ∃ t, (run init ops).sends[i]? = some t := by
  intro v i h
  obtain ⟨t, h, -⟩ := (inv_run ops).own v i h
  exact ⟨t, h⟩

/-! ## C37 -/

theorem timer_step (s : State) (op : Op) (h : OneTimer s ∨ NoTimer s) :
    (OneTimer (step s op) ∨ NoTimer (step s op)) ∧ (OneTimer s → OneTimer (step s op)) ∧
    ((op = .connect ∨ (∃ cmd src dst timeout b, op = .send cmd src dst timeout ∧ (packetFor ((s.seq + 1) % 256) src dst cmd).bind compose = .ok b) ∨
        (∃ k due, op = .fire k ∧ s.timers.get? k = some due ∧ due ≤ s.now)) →
      ∃ k, (step s op).timers = [(k, s.now + 25)] ∧ OneTimer (step s op)) ∧
    ((op ≠ .connect ∧ (∀ cmd src dst timeout, op ≠ .send cmd src dst timeout) ∧ (∀ k, op ≠ .fire k)) → (step s op).timers = s.timers) := by
  have h' : OneTimer s ∨ s.timers = [] := h.imp id (·.1)
  have frame : (step s op).timers = s.timers → (step s op).keepAlive = s.keepAlive → (step s op).nextTimer = s.nextTimer →
      (OneTimer (step s op) ∨ NoTimer (step s op)) ∧ (OneTimer s → OneTimer (step s op)) := by
    intro a b c
    have hone : OneTimer s → OneTimer (step s op) := fun ho => ho.congr a b c (step_now s op)
    exact ⟨h.imp hone (fun hn => ⟨a.trans hn.1, b.trans hn.2⟩), hone⟩
  cases op with
  | connect =>
    obtain ⟨k, h1, h2, h3⟩ := reset_timer (s := { s with connected := true }) h'
    have ho : OneTimer (step s .connect) := ⟨k, _, h1, h2, h3, Nat.le_refl _⟩
    exact ⟨Or.inl ho, fun _ => ho, fun _ => ⟨k, h1, ho⟩, fun h => absurd rfl h.1⟩
  | send cmd src dst timeout =>
    generalize hp : (packetFor ((s.seq + 1) % 256) src dst cmd).bind compose = pkt
    have hs : step s (.send cmd src dst timeout) = transmitAndWait { s with seq := (s.seq + 1) % 256 } pkt timeout := by rw [← hp]; rfl
    cases pkt with
    | error e =>
      obtain ⟨f1, f2⟩ := frame (by rw [hs]; rfl) (by rw [hs]; rfl) (by rw [hs]; rfl)
      refine ⟨f1, f2, ?_, fun h => absurd rfl (h.2.1 _ _ _ _)⟩
      rintro (h | ⟨c, s1, d1, t1, b, h, hb⟩ | ⟨k, due, h, -⟩)
      · cases h
      · cases h; rw [hp] at hb; cases hb
      · cases h
    | ok b =>
      obtain ⟨-, -, -, t4, t5, t6, t7⟩ := transmit_sends { s with seq := (s.seq + 1) % 256 } b
      have h'' : OneTimer (transmit { s with seq := (s.seq + 1) % 256 } b) ∨ (transmit { s with seq := (s.seq + 1) % 256 } b).timers = [] := by
        rcases h' with ho | hn
        · exact Or.inl (ho.congr t5 t6 t7 (by simp only [State.now, t4]; exact Nat.le_refl _))
        · exact Or.inr (t5.trans hn)
      obtain ⟨k, h1, h2, h3⟩ := reset_timer h''
      have hnow : (transmit { s with seq := (s.seq + 1) % 256 } b).now = s.now := by simp only [State.now, t4]
      rw [hnow] at h1
      have e1 : (step s (.send cmd src dst timeout)).timers = [(k, s.now + 25)] := by
        rw [hs]; simp only [transmitAndWait]; split <;> exact h1
      have e2 : (step s (.send cmd src dst timeout)).keepAlive = some k := by
        rw [hs]; simp only [transmitAndWait]; split <;> exact h2
      have e3 : k < (step s (.send cmd src dst timeout)).nextTimer := by
        rw [hs]; simp only [transmitAndWait]; split <;> exact h3
      have ho : OneTimer (step s (.send cmd src dst timeout)) :=
        ⟨k, _, e1, e2, e3, by have := step_now s (.send cmd src dst timeout); omega⟩
      exact ⟨Or.inl ho, fun _ => ho, fun _ => ⟨k, e1, ho⟩, fun h => absurd rfl (h.2.1 _ _ _ _)⟩
  | packet b =>
    have hf : (step s (.packet b)).timers = s.timers ∧ (step s (.packet b)).keepAlive = s.keepAlive ∧ (step s (.packet b)).nextTimer = s.nextTimer := by
      rcases onPacket_cases s b with ⟨-, -, -, -, a, b, c⟩ | ⟨p, v, j, u, x, d, -, -, -, -, -, -, -, -, -, h⟩ | ⟨p, v, j, u, -, -, -, -, -, -, -, h⟩
      · exact ⟨a, b, c⟩
      · simp only [step, h, and_self]
      · simp only [step, h, and_self]
    obtain ⟨f1, f2⟩ := frame hf.1 hf.2.1 hf.2.2
    exact ⟨f1, f2, by simp, fun _ => hf.1⟩
  | tick =>
    obtain ⟨f1, f2⟩ := frame rfl rfl rfl
    exact ⟨f1, f2, by simp, fun _ => rfl⟩
  | timer i =>
    have hf : (step s (.timer i)).timers = s.timers ∧ (step s (.timer i)).keepAlive = s.keepAlive ∧ (step s (.timer i)).nextTimer = s.nextTimer := by
      simp only [step]; split; · simp
      split <;> simp
    obtain ⟨f1, f2⟩ := frame hf.1 hf.2.1 hf.2.2
    exact ⟨f1, f2, by simp, fun _ => hf.1⟩
  | resume i =>
    have hf : (step s (.resume i)).timers = s.timers ∧ (step s (.resume i)).keepAlive = s.keepAlive ∧ (step s (.resume i)).nextTimer = s.nextTimer := by
      simp only [step]; split; · simp
      split
      · split <;> simp
      · split <;> simp
    obtain ⟨f1, f2⟩ := frame hf.1 hf.2.1 hf.2.2
    exact ⟨f1, f2, by simp, fun _ => hf.1⟩
  | cancelled i =>
    have hf : (step s (.cancelled i)).timers = s.timers ∧ (step s (.cancelled i)).keepAlive = s.keepAlive ∧ (step s (.cancelled i)).nextTimer = s.nextTimer := by
      simp only [step]; split; · simp
      split
      · split <;> simp
      · simp
    obtain ⟨f1, f2⟩ := frame hf.1 hf.2.1 hf.2.2
    exact ⟨f1, f2, by simp, fun _ => hf.1⟩
  | kill i =>
    have hf : (step s (.kill i)).timers = s.timers ∧ (step s (.kill i)).keepAlive = s.keepAlive ∧ (step s (.kill i)).nextTimer = s.nextTimer := by
      simp only [step]; split; · simp
      split <;> simp
    obtain ⟨f1, f2⟩ := frame hf.1 hf.2.1 hf.2.2
    exact ⟨f1, f2, by simp, fun _ => hf.1⟩
  | fire k =>
    by_cases hk : ∃ due, s.timers.get? k = some due ∧ due ≤ s.now
    · obtain ⟨due, hk, hdue⟩ := hk
      have hone : OneTimer s := by
        rcases h with h | h
        · exact h
        · rw [h.1] at hk; cases hk
      obtain ⟨k', due', g1, g2, g3, g4⟩ := hone
      have hkk : k' = k := by
        rw [g1] at hk
        simp only [Dict.get?] at hk
        split at hk
        · assumption
        · cases hk
      have he : s.timers.erase k = [] := by
        rw [g1, hkk]; simp [Dict.erase]
      have hs : step s (.fire k) = resetKeepAlive (transmit { s with timers := s.timers.erase k } [0x23, 0x03, 0x80]) := by
        simp only [step, hk, if_pos hdue, keepAlive, keepAlivePacket_ok]
      obtain ⟨-, -, -, t4, t5, t6, t7⟩ := transmit_sends { s with timers := s.timers.erase k } [0x23, 0x03, 0x80]
      obtain ⟨k2, h1, h2, h3⟩ := reset_timer (s := transmit { s with timers := s.timers.erase k } [0x23, 0x03, 0x80]) (Or.inr (t5.trans he))
      rw [← hs] at h1 h2 h3
      have hnow : (transmit { s with timers := s.timers.erase k } [0x23, 0x03, 0x80]).now = s.now := by simp only [State.now, t4]
      rw [hnow] at h1
      have ho : OneTimer (step s (.fire k)) := ⟨k2, _, h1, h2, h3, by have := step_now s (.fire k); omega⟩
      exact ⟨Or.inl ho, fun _ => ho, fun _ => ⟨k2, h1, ho⟩, fun h => absurd rfl (h.2.2 k)⟩
    · have hs : step s (.fire k) = s := by
        simp only [step]
        split
        · rfl
        · rename_i due hd
          rw [if_neg (fun hle => hk ⟨due, hd, hle⟩)]
      obtain ⟨f1, f2⟩ := frame (by rw [hs]) (by rw [hs]) (by rw [hs])
      refine ⟨f1, f2, ?_, fun h => absurd rfl (h.2.2 k)⟩
      rintro (h | ⟨c, s1, d1, t1, b, h, -⟩ | ⟨k', due, h, h1, h2⟩)
      · cases h
      · cases h
      · cases h; exact absurd ⟨due, h1, h2⟩ hk
  | waiter o =>
    have hf : (step s (.waiter o)).timers = s.timers ∧ (step s (.waiter o)).keepAlive = s.keepAlive ∧ (step s (.waiter o)).nextTimer = s.nextTimer := by
      cases o <;> exact ⟨rfl, rfl, rfl⟩
    obtain ⟨f1, f2⟩ := frame hf.1 hf.2.1 hf.2.2
    exact ⟨f1, f2, by simp, fun _ => hf.1⟩

theorem timer_run : ∀ (ops : List Op) (s : State), (OneTimer s ∨ NoTimer s) →
    (OneTimer (run s ops) ∨ NoTimer (run s ops)) ∧ ((OneTimer s ∨ .connect ∈ ops) → OneTimer (run s ops)) := by
  intro ops
  induction ops with
  | nil => intro s h; exact ⟨h, fun h' => h'.elim id (by simp)⟩
  | cons op ops ih =>
    intro s h
    obtain ⟨a, b, c, -⟩ := timer_step s op h
    obtain ⟨i1, i2⟩ := ih (step s op) a
    refine ⟨i1, ?_⟩
    rintro (h' | h')
    · exact i2 (Or.inl (b h'))
    · rcases List.mem_cons.mp h' with rfl | h'
      · obtain ⟨k, -, ho⟩ := c (Or.inl rfl)
        exact i2 (Or.inl ho)
      · exact i2 (Or.inr h')

/-- **C37.** Once `connect()` has completed, at every moment exactly one keep-alive timer is armed, at most 25 s ahead. -/
theorem C37_one_timer (ops : List Op) (h : .connect ∈ ops) :
    ∃ k due, (run init ops).timers = [(k, due)] ∧ due ≤ (run init ops).now + 25 := by
  obtain ⟨k, due, h1, -, -, h2⟩ := (timer_run ops init (Or.inr ⟨rfl, rfl⟩)).2 (Or.inr h)
  exact ⟨k, due, h1, h2⟩

/-- **C37.** It is armed anew, for 25 s, by `connect()`, by every send (whose packet can be composed) and when it expires; nothing else changes it. -/
theorem C37_rearmed (ops : List Op) (op : Op) :
    let s := run init ops
    ((op = .connect ∨ (∃ cmd src dst timeout b, op = .send cmd src dst timeout ∧ (packetFor ((s.sends.length + 1) % 256) src dst cmd).bind compose = .ok b) ∨
        (∃ k due, op = .fire k ∧ s.timers.get? k = some due ∧ due ≤ s.now)) → ∃ k, (step s op).timers = [(k, s.now + 25)]) ∧
    ((op ≠ .connect ∧ (∀ cmd src dst timeout, op ≠ .send cmd src dst timeout) ∧ (∀ k, op ≠ .fire k)) → (step s op).timers = s.timers) := by
  intro s
  obtain ⟨-, -, h1, h2⟩ := timer_step s op (timer_run ops init (Or.inr ⟨rfl, rfl⟩)).1
  refine ⟨?_, h2⟩
  intro h
  have hq : (s.sends.length + 1) % 256 = (s.seq + 1) % 256 := by rw [show s.seq = s.sends.length % 256 from (inv_run ops).last]; omega
  rw [hq] at h
  obtain ⟨k, h, -⟩ := h1 h
  exact ⟨k, h⟩

/-- **C37.** When it expires a keep-alive request is transmitted. -/
theorem C37_keep_alive (s : State) (k due : Nat) (h : s.timers.get? k = some due) (hd : due ≤ s.now) (hc : s.connected = true) :
    (step s (.fire k)).out = s.out ++ [[0x23, 0x03, 0x80]] := by
  simp only [step, h, if_pos hd, keepAlive, keepAlivePacket_ok, resetKeepAlive, transmit, hc, if_true]

example : let s := run init ([.connect] ++ List.replicate 10 .tick ++ [.send .pure 0 0 3] ++ List.replicate 25 .tick ++ [.fire 0, .fire 1])
    s.timers = [(2, 60)] ∧ s.out = [[0x23, 0x02, 0x80, 0x50, 0x01, 0x00, 0x00], [0x23, 0x03, 0x80]] := by decide +kernel

/-! ## C81 -/

/-- **C81** as wanted: a call of `send()` that was transmitted and not cancelled returns True or False, it does not raise (except for a number in use). -/
def C81_statement : Prop :=
  ∀ (ops : List Op) (i : Nat) (t : Send) (r : Py Bool), .kill i ∉ ops → (run init ops).sends[i]? = some t → 0 < t.deadline → t.pc = .done r →
    r = .ok true ∨ r = .ok false

/-- **C81** fails: an acknowledgement that arrives just after the timer makes `send()` raise KeyError. -/
theorem C81_violated : ¬ C81_statement := by
  intro h
  have := h [.send .pure 0 0 1, .tick, .timer 0, .packet [0x23, 0x02, 0x40, 0x10, 0x01, 0x00, 0x00], .resume 0, .cancelled 0] 0
    ⟨1, .done (.error .key), .received, 0, false, 1⟩ (.error .key) (by simp) (by decide +kernel) (by decide) rfl
  rcases this with h | h <;> cases h

/-- **C81**, what holds: the possible outcomes, and KeyError only at a moment at which its number is not registered. -/
theorem C81_outcomes_partial (ops : List Op) : ∀ (i : Nat) (t : Send) (r : Py Bool), (run init ops).sends[i]? = some t → t.pc = .done r → 0 < t.deadline →
    .kill i ∉ ops → r = .ok true ∨ r = .ok false ∨ (r = .error .key ∧ ∃ before after u, ops = before ++ .cancelled i :: after ∧
      (run init before).sends[i]? = some u ∧ u.pc = .cancelling ∧ (run init before).ackQueue.mem (t.seq : Int) = false) := by
  induction ops using snoc_ind with
  | nil => intro i t r ht; simp [run, init] at ht
  | snoc ops op ih =>
    intro i t' r ht' hp hd hk
    simp only [List.mem_append, List.mem_singleton, not_or] at hk
    rw [run_snoc] at ht'
    rcases step_back _ _ _ _ ht' with ⟨hn, -⟩ | ⟨t, ht, tr⟩
    · obtain ⟨-, cmd, src, dst, timeout, -, h⟩ := step_new _ _ _ _ hn ht'
      rcases h with ⟨e, h, -⟩ | ⟨h, -⟩
      · subst h; simp at hd
      · subst h; simp at hp
    · have lift : t.pc = .done r → t.seq = t'.seq → 0 < t.deadline → r = .ok true ∨ r = .ok false ∨ (r = .error .key ∧ ∃ before after u, ops ++ [op] = before ++ .cancelled i :: after ∧
          (run init before).sends[i]? = some u ∧ u.pc = .cancelling ∧ (run init before).ackQueue.mem (t'.seq : Int) = false) := by
        intro h1 h2 h3
        rcases ih i t r ht h1 h3 hk.1 with h | h | ⟨h, a, c, u, e, h'⟩
        · exact Or.inl h
        · exact Or.inr (Or.inl h)
        · exact Or.inr (Or.inr ⟨h, a, c ++ [op], u, by rw [e]; simp, by rw [← h2]; exact h'⟩)
      cases tr with
      | same => exact lift hp rfl hd
      | queued => exact lift hp rfl hd
      | received => exact lift hp rfl hd
      | timer => simp at hp
      | rearm => simp at hp
      | success => left; simpa using hp.symm
      | giveUp => simp at hp
      | failed => right; left; simpa using hp.symm
      | raised a1 a2 =>
        right; right
        refine ⟨by simpa using hp.symm, ops, [], t, rfl, ht, a1, a2⟩
      | killed => exact absurd rfl hk.2

end Props

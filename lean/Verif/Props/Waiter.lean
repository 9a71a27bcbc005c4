import Verif.Lemmas.Fresh
/-!
# Properties C38-C42 and C89: waiting for messages

The state of the world is reached from `init` by an arbitrary schedule `ops` (`Model/Waiter.lean`). Calls are numbered in the order in which
they are made.
-/
namespace Props
open Model Model.Waiter

/-- The call `i` has ended with `r`. -/
def Ended (s : State) (i : Nat) (r : Res) : Prop := ∃ t, s.tasks[i]? = some t ∧ t.pc = .done r

/-- An unfinished call waits for messages of type `h`. -/
def SomebodyWaits (s : State) (h : Nat) : Prop := ∃ (i : Nat) (t : Task), s.tasks[i]? = some t ∧ t.hid = h ∧ ∀ r, t.pc ≠ .done r

/-- `op` is the arrival of a message of type `h` or a new call waiting for type `h`. -/
def Concerns (h : Nat) : Op → Prop
  | .call _ h' _ => h' = h
  | .message m => m.hid = h
  | _ => False

/-- **C38.** Whatever the schedule, a call that returns a message returns one of the requested type. -/
theorem C38_requested_type (ops : List Op) (i : Nat) (t : Task) (m : Msg) (ht : (run init ops).tasks[i]? = some t) (hd : t.pc = .done (.ok m)) :
    m.hid = t.hid := by
  obtain ⟨tag, h⟩ := inv_run ops
  exact h.done i t m ht hd

/-- Two calls for different types and two messages. -/
example : let m1 := Msg.unknown 0x2503; let m2 := Msg.unknown 0x2003
    let s := run init [.call .plain 0x2503 3, .call .adapter 0x2003 3, .message m2, .message m1, .sendDone 1 true, .resume 0, .resume 1]
    s.tasks.map (·.pc) = [.done (.ok m1), .done (.ok m2)] := by decide +kernel

/-! ## C39 -/

/-- **C39**, first part: a message is reported as handled exactly if a session for its type is registered. -/
def C39_statement : Prop :=
  ∀ (ops : List Op) (m : Msg), (messageReceived (run init ops) m).2 = .ok ((run init ops).sessions.get? m.hid).isSome

/-- **C39** fails: if the waiting call has timed out but not yet removed its session, receiving the message raises InvalidStateError. -/
theorem C39_violated : ¬ C39_statement := by
  intro h
  have := h [.call .plain 0x2503 1, .tick, .timer 0, .resume 0] (.unknown 0x2503)
  revert this
  decide +kernel

/-- **C39**, what holds: without a registered session nothing changes and False is returned. With one, the session is removed and either
its future (and no other) receives the message and True is returned, or the future was cancelled, nothing else changes and
InvalidStateError is raised; in the latter case a call for that type is just timing out. -/
theorem C39_at_most_one_partial (ops : List Op) (m : Msg) :
    let s := run init ops
    let r := messageReceived s m
    (s.sessions.get? m.hid = none → r = (s, .ok false)) ∧
    ∀ f, s.sessions.get? m.hid = some f →
      r.1.tasks = s.tasks ∧ (∀ h, r.1.sessions.get? h = if h = m.hid then none else s.sessions.get? h) ∧ (∀ g, g ≠ f → r.1.futs[g]? = s.futs[g]?) ∧
      ((r.2 = .ok true ∧ s.futs[f]? = some .pending ∧ r.1.futs[f]? = some (.result m)) ∨
       (r.2 = .error .invalidState ∧ r.1.futs[f]? = s.futs[f]? ∧ s.futs[f]? = some .cancelled ∧
          ∃ (i : Nat) (t : Task), s.tasks[i]? = some t ∧ t.hid = m.hid ∧ t.pc = .cancelling)) := by
  obtain ⟨tag, hi⟩ := inv_run ops
  generalize run init ops = s at hi
  dsimp only
  refine ⟨?_, ?_⟩
  · intro hs
    simp only [messageReceived, hs]
  · intro f hs
    obtain ⟨-, h⟩ := hi.sess _ f hs
    have he : ∀ h, (s.sessions.erase m.hid).get? h = if h = m.hid then none else s.sessions.get? h := by
      intro h
      rw [Dict.get?_erase]
      by_cases e : m.hid = h
      · rw [if_pos e, if_pos e.symm]
      · rw [if_neg e, if_neg (fun x => e x.symm)]
    rcases h with hp | ⟨hc, hx⟩
    · have hr : messageReceived s m = ({ s with sessions := s.sessions.erase m.hid, futs := s.futs.set f (.result m) }, .ok true) := by
        simp only [messageReceived, hs, hp]
      rw [hr]
      refine ⟨rfl, he, ?_, Or.inl ⟨rfl, hp, getElem?_set_some hp⟩⟩
      intro g hg
      rw [List.getElem?_set_ne (fun e => hg e.symm)]
    · have hr : messageReceived s m = ({ s with sessions := s.sessions.erase m.hid }, .error .invalidState) := by
        simp only [messageReceived, hs, hc]
      rw [hr]
      exact ⟨rfl, he, fun _ _ => rfl, Or.inr ⟨rfl, rfl, hc, hx⟩⟩

/-- **C39.** A session is resolved at most once: later messages do not change its result. -/
theorem C39_resolved_once_partial (ops ops' : List Op) (f : Nat) (m : Msg) (h : (run init ops).futs[f]? = some (.result m)) :
    (run init (ops ++ ops')).futs[f]? = some (.result m) := by
  rw [run_append]
  exact run_result ops' _ f m h

/-! ## C40 -/

theorem foreign_of_concerns {h : Nat} {op : Op} (hc : ¬ Concerns h op) : op.foreign h := by
  cases op <;> first | exact hc | trivial

/-- **C40.** Let `Adapter.sendAndReceive` be called for a type nobody else waits for. Let a message of that type arrive while the command is still
being sent or before the timeout, no other call for the type having been made. Then the call can only end with this message, whatever else happens
(unless the task is cancelled or sending raises), and it ends when the send has returned and the task runs. -/
theorem C40_early_reply (ops0 ops1 ops2 : List Op) (m : Msg) (timeout : Nat) (ok : Bool) :
    let s0 := run init ops0
    let i := s0.tasks.length
    let s1 := run (step s0 (.call .adapter m.hid timeout)) ops1
    let s2 := run (step s1 (.message m)) ops2
    ¬ SomebodyWaits s0 m.hid →
    (∀ op ∈ ops1, ¬ Concerns m.hid op) →
    (∀ op ∈ ops1 ++ ops2, op ≠ .kill i ∧ ∀ e, op ≠ .sendRaise i e) →
    (∀ t, s1.tasks[i]? = some t → t.pc = .sending ∨ s1.now < t.deadline) →
    (∀ r, Ended s2 i r → r = .ok m) ∧ Ended (run s2 [.sendDone i ok, .resume i]) i (.ok m) := by
  intro s0 i s1 s2 hw hc hk hin
  obtain ⟨tag, hi⟩ := inv_run ops0
  have ha : Alone (step s0 (.call .adapter m.hid timeout)) i m.hid := by
    refine Alone.call hi ?_ _ _
    intro j u hu he
    apply Classical.byContradiction
    intro hn
    exact hw ⟨j, u, hu, he, fun r hr => hn ⟨r, hr⟩⟩
  obtain ⟨tag1, hi1⟩ := Inv.step hi (.call .adapter m.hid timeout)
  have hr := Alone.run ops1 hi1 ha (fun op ho => foreign_of_concerns (hc op ho))
    (fun ho => (hk _ (List.mem_append_left _ ho)).1 rfl) (fun e ho => (hk _ (List.mem_append_left _ ho)).2 e rfl)
  have hnode : ∀ t, s1.tasks[i]? = some t → t.kind = .adapter := by
    have : ∀ (l : List Op) (s : State) (t0 : Task), s.tasks[i]? = some t0 → ∃ t1, (run s l).tasks[i]? = some t1 ∧ t1.kind = t0.kind := by
      intro l
      induction l with
      | nil => intro s t0 h; exact ⟨t0, h, rfl⟩
      | cons o l ih =>
        intro s t0 h
        obtain ⟨t1, a, b⟩ := step_kind s o i t0 h
        obtain ⟨t2, c, d⟩ := ih _ t1 a
        exact ⟨t2, c, d.trans b⟩
    intro t ht
    obtain ⟨t1, a, b⟩ := this ops1 _ _ (call_task s0 .adapter m.hid timeout)
    rw [ht] at a; cases a; exact b
  have hres : Resolved (step s1 (.message m)) i m := by
    rcases hr with hr | ⟨t, ht, hd, hn1, hn2⟩
    · obtain ⟨f, t, hs, hf, ht, hh, hpc, ho⟩ := hr
      exact Alone.message ⟨f, t, hs, hf, ht, hh, hpc, ho⟩ ht (fun _ => by rw [hnode t ht]; simp)
    · rcases hin t ht with h | h
      · exact absurd h hn1
      · exact absurd h (Nat.not_lt.mpr hd)
  have hres2 : Resolved s2 i m := Resolved.run ops2 hres
    (fun ho => (hk _ (List.mem_append_right _ ho)).1 rfl) (fun e ho => (hk _ (List.mem_append_right _ ho)).2 e rfl)
  refine ⟨?_, hres2.finish ok⟩
  rintro r ⟨t, ht, hpc⟩
  obtain ⟨t', f, ht', -, -, h⟩ := hres2
  rw [ht] at ht'; cases ht'
  rw [hpc] at h
  rcases h with ⟨h, -⟩ | h | h | h
  · cases h
  · cases h
  · cases h
  · injection h

/-- The reply arrives before the acknowledgement. -/
example : let m := Msg.unknown 0x5203
    (run init [.call .adapter 0x5203 3, .message m, .sendDone 0 true, .resume 0]).tasks.map (·.pc) = [.done (.ok m)] := by decide +kernel

/-! ## C41 -/

/-- **C41** as wanted: C40 for `Node.sendAndReceive`. -/
def C41_statement : Prop :=
  ∀ (ops0 ops1 ops2 : List Op) (m : Msg) (timeout : Nat),
    let s0 := run init ops0
    let i := s0.tasks.length
    let s1 := run (step s0 (.call .node m.hid timeout)) ops1
    let s2 := run (step s1 (.message m)) ops2
    ¬ SomebodyWaits s0 m.hid →
    (∀ op ∈ ops1, ¬ Concerns m.hid op) →
    (∀ op ∈ ops1 ++ ops2, op ≠ .kill i ∧ (∀ e, op ≠ .sendRaise i e) ∧ op ≠ .sendDone i false) →
    (∀ t, s1.tasks[i]? = some t → t.pc = .sending ∨ s1.now < t.deadline) →
    ∀ r, Ended s2 i r → r = .ok m

/-- **C41** fails: a reply that arrives before the acknowledgement is lost, the call times out. -/
theorem C41_violated : ¬ C41_statement := by
  intro h
  have := h [] [] [.sendDone 0 true, .tick, .timer 0, .resume 0, .cancelDone 0] (.unknown 0x2503) 1 (by
      rintro ⟨i, t, h, -⟩; simp [run, init] at h) (by simp) (by simp [run, init]) (by
      intro t ht
      left
      have e : (run (step (run init []) (.call .node 0x2503 1)) []).tasks[(run init []).tasks.length]? = some ⟨.node, 0x2503, 1, none, 0, .sending⟩ := by
        decide +kernel
      rw [show (Msg.unknown 0x2503).hid = 0x2503 from rfl, e] at ht
      cases ht; rfl) (.error .timeout) ⟨⟨.node, 0x2503, 1, some 1, 1, .done (.error .timeout)⟩, by decide +kernel, rfl⟩
  cases this

/-- **C41**, what holds: a reply that arrives after the command has been acknowledged (and before the timeout) is returned.
Missing: replies that arrive earlier, see `C41_violated`. -/
theorem C41_reply_after_ack_partial (ops0 ops1 ops2 : List Op) (m : Msg) (timeout : Nat) (ok : Bool) :
    let s0 := run init ops0
    let i := s0.tasks.length
    let s1 := run (step s0 (.call .node m.hid timeout)) ops1
    let s2 := run (step s1 (.message m)) ops2
    ¬ SomebodyWaits s0 m.hid →
    (∀ op ∈ ops1, ¬ Concerns m.hid op) →
    (∀ op ∈ ops1 ++ ops2, op ≠ .kill i ∧ ∀ e, op ≠ .sendRaise i e) →
    (∀ t, s1.tasks[i]? = some t → t.pc ≠ .sending ∧ s1.now < t.deadline) →
    (∀ r, Ended s2 i r → r = .ok m) ∧ Ended (run s2 [.sendDone i ok, .resume i]) i (.ok m) := by
  intro s0 i s1 s2 hw hc hk hin
  obtain ⟨tag, hi⟩ := inv_run ops0
  have ha : Alone (step s0 (.call .node m.hid timeout)) i m.hid := by
    refine Alone.call hi ?_ _ _
    intro j u hu he
    apply Classical.byContradiction
    intro hn
    exact hw ⟨j, u, hu, he, fun r hr => hn ⟨r, hr⟩⟩
  obtain ⟨tag1, hi1⟩ := Inv.step hi (.call .node m.hid timeout)
  have hr := Alone.run ops1 hi1 ha (fun op ho => foreign_of_concerns (hc op ho))
    (fun ho => (hk _ (List.mem_append_left _ ho)).1 rfl) (fun e ho => (hk _ (List.mem_append_left _ ho)).2 e rfl)
  have hres : Resolved (step s1 (.message m)) i m := by
    rcases hr with hr | ⟨t, ht, hd, hn1, hn2⟩
    · obtain ⟨f, t, hs, hf, ht, hh, hpc, ho⟩ := hr
      exact Alone.message ⟨f, t, hs, hf, ht, hh, hpc, ho⟩ ht (fun h => absurd h (hin t ht).1)
    · exact absurd (hin t ht).2 (Nat.not_lt.mpr hd)
  have hres2 : Resolved s2 i m := Resolved.run ops2 hres
    (fun ho => (hk _ (List.mem_append_right _ ho)).1 rfl) (fun e ho => (hk _ (List.mem_append_right _ ho)).2 e rfl)
  refine ⟨?_, hres2.finish ok⟩
  rintro r ⟨t, ht, hpc⟩
  obtain ⟨t', f, ht', -, -, h⟩ := hres2
  rw [ht] at ht'; cases ht'
  rw [hpc] at h
  rcases h with ⟨h, -⟩ | h | h | h
  · cases h
  · cases h
  · cases h
  · injection h

example : let m := Msg.unknown 0x5203
    (run init [.call .node 0x5203 3, .sendDone 0 true, .tick, .message m, .resume 0]).tasks.map (·.pc) = [.done (.ok m)] := by decide +kernel

/-! ## C42 -/

/-- **C42**, first half: if no task is cancelled from outside and no send fails, calls end with a message or, not before their deadline,
with TimeoutError. -/
def C42_statement : Prop :=
  ∀ (ops : List Op) (i : Nat) (t : Task) (r : Res), (∀ op ∈ ops, ∀ j, op ≠ .kill j ∧ (∀ e, op ≠ .sendRaise j e) ∧ op ≠ .sendDone j false) →
    (run init ops).tasks[i]? = some t → t.pc = .done r → (∃ m, r = .ok m) ∨ (r = .error .timeout ∧ t.deadline ≤ (run init ops).now)

/-- **C42** fails: the first of two calls for the same type times out after 1 s; the second, which wants to wait for 10 s, is cancelled with it. -/
theorem C42_violated : ¬ C42_statement := by
  intro h
  have := h [.call .plain 0x2503 1, .call .plain 0x2503 10, .tick, .timer 0, .resume 0, .resume 1] 1
    ⟨.plain, 0x2503, 10, some 0, 10, .done (.error .cancelled)⟩ (.error .cancelled) (by simp) (by decide +kernel) rfl
  rcases this with ⟨m, h⟩ | ⟨h, -⟩ <;> cases h

/-- **C42**, second half: a message that arrives while a call waits for its type (and before its deadline) is delivered to a call. -/
def C42_delivery_statement : Prop :=
  ∀ (ops : List Op) (m : Msg) (i : Nat) (t : Task), (∀ op ∈ ops, ∀ j, op ≠ .kill j) → (run init ops).tasks[i]? = some t → t.hid = m.hid →
    t.pc = .waiting → (run init ops).now < t.deadline → (messageReceived (run init ops) m).2 = .ok true

/-- The second half fails too: a call that returns its message removes the session another call has registered in the meantime. -/
theorem C42_delivery_violated : ¬ C42_delivery_statement := by
  intro h
  have := h [.call .plain 0x2503 3, .message (.unknown 0x2503), .call .plain 0x2503 3, .resume 0] (.unknown 0x2503) 1
    ⟨.plain, 0x2503, 3, some 1, 3, .waiting⟩ (by simp) (by decide +kernel) rfl rfl (by decide +kernel)
  revert this
  decide +kernel

/-- **C42**, what holds: a message that arrives while several calls share the registered session is returned by every one of them.
Missing: see `C42_violated` and `C42_delivery_violated`. -/
theorem C42_shared_partial (ops ops2 : List Op) (m : Msg) (f i : Nat) (t : Task) (ok : Bool) :
    let s := run init ops
    let s2 := run (step s (.message m)) ops2
    s.sessions.get? m.hid = some f → s.futs[f]? = some .pending → s.tasks[i]? = some t → t.fut = some f → (t.pc = .sending ∧ t.kind = .adapter ∨ t.pc = .waiting ∨ t.pc = .timedOut) →
    (∀ op ∈ ops2, op ≠ .kill i ∧ ∀ e, op ≠ .sendRaise i e) →
    (∀ r, Ended s2 i r → r = .ok m) ∧ Ended (run s2 [.sendDone i ok, .resume i]) i (.ok m) := by
  intro s s2 hs hf ht htf hpc hk
  have hres : Resolved (step s (.message m)) i m := by
    refine ⟨t, f, ?_, htf, ?_, ?_⟩
    · simp only [step, msg_tasks]; exact ht
    · simp only [step, messageReceived, hs, hf]
      exact getElem?_set_some hf
    · rcases hpc with ⟨h, hk⟩ | h | h
      · exact Or.inl ⟨h, by rw [hk]; simp⟩
      · exact Or.inr (Or.inl h)
      · exact Or.inr (Or.inr (Or.inl h))
  have hres2 : Resolved s2 i m := Resolved.run ops2 hres (fun ho => (hk _ ho).1 rfl) (fun e ho => (hk _ ho).2 e rfl)
  refine ⟨?_, hres2.finish ok⟩
  rintro r ⟨t, ht, hpc⟩
  obtain ⟨t', f, ht', -, -, h⟩ := hres2
  rw [ht] at ht'; cases ht'
  rw [hpc] at h
  rcases h with ⟨h, -⟩ | h | h | h
  · cases h
  · cases h
  · cases h
  · injection h

example : let m := Msg.unknown 0x5203
    (run init [.call .plain 0x5203 3, .call .adapter 0x5203 3, .message m, .resume 0, .sendDone 1 false, .resume 1]).tasks.map (·.pc) =
      [.done (.ok m), .done (.ok m)] := by decide +kernel

/-! ## C89 -/

/-- **C89.** In every history, a message returned by a call arrived after the call was made. -/
theorem C89_fresh (ops ops' : List Op) (k : Kind) (hid timeout : Nat) (m : Msg) :
    let s := run init ops
    Ended (run (step s (.call k hid timeout)) ops') s.tasks.length (.ok m) → .message m ∈ ops' := by
  rintro s ⟨t, ht, hd⟩
  obtain ⟨tag, hi⟩ := inv_run ops
  obtain ⟨tag', hi'⟩ := hi.run [.call k hid timeout]
  obtain ⟨u, hu, -, -, h⟩ := (Prov.call (P := fun m => .message m ∈ ops') hi k hid timeout).run ops' hi' (fun m hm => hm)
  have e : some t = some u := ht.symm.trans hu
  cases e
  exact h m hd

/-- A report answers one call; the next call does not get it although nobody else wanted it. -/
example : let m := Msg.unknown 0x5203
    (run init [.message m, .call .plain 0x5203 3, .message m, .resume 0, .call .plain 0x5203 3, .resume 1]).tasks.map (·.pc) = [.done (.ok m), .waiting] := by
  decide +kernel

end Props

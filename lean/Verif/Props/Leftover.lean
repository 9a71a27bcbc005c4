import Verif.Props.Waiter
import Verif.Props.Conn
import Verif.Model.Node
/-!
# Property theorems C123: messages nobody waits for
-/
namespace Props.Leftover
open Model Model.Waiter

/-- **C123**: a message that nobody waits for is not taken by the waiting calls: it is told to the listeners. -/
def C123_statement : Prop := ∀ (ops : List Op) (m : Msg), ¬ SomebodyWaits (run init ops) m.hid → (messageReceived (run init ops) m).2 = .ok false

/-- **C123** fails: a `Node.sendAndReceive()` whose command is not acknowledged leaves its session behind, which takes the next message. -/
theorem C123_violated : ¬ C123_statement := by
  intro h
  have := h [.call .node 0x2503 3, .sendDone 0 false] (.unknown 0x2503) (by
    rintro ⟨i, t, ht, -, hp⟩
    rcases i with _ | i
    · have : t = ⟨.node, 0x2503, 3, none, 0, .done (.error .timeout)⟩ := by
        have e : (run init [.call .node 0x2503 3, .sendDone 0 false]).tasks[0]? = some ⟨.node, 0x2503, 3, none, 0, .done (.error .timeout)⟩ := by decide +kernel
        exact Option.some.inj (ht.symm.trans e)
      rw [this] at hp
      exact hp _ rfl
    · have e : (run init [.call .node 0x2503 3, .sendDone 0 false]).tasks.length = 1 := by decide +kernel
      have := lt_of_getElem? ht
      omega)
  revert this
  decide +kernel

/-- Also on a connection to the gateway: a query whose command could not be composed takes the next report; the listeners hear only the one after that. -/
example : let b : Spec.Bytes := [0x23, 0x02, 0x00, 0x40, 1, 0, 0, 0x25, 0x03, 0xFF]
    let s := Conn.run Conn.init [.connect, .waiter (.call .adapter 0x2503 3), .waiter (.sendRaise 0 .overflow)]
    (Conn.step s (.packet b)).heard = [] ∧ (Conn.step (Conn.step s (.packet b)) (.packet b)).heard.length = 1 := by decide +kernel

/-- Also at a node: handleMessage() says that the message is handled, but no listener of the node is asked. -/
example : let e : Node.Env Unit := ⟨fun _ => false, fun _ _ => none, fun _ _ _ => [], fun _ => [.sync fun u => (u, .ok (.bool true))], fun _ u => (u, .ok true)⟩
    let s := run init [.call .node 0x2503 3, .sendDone 0 false]
    let a := Node.handlePlain e ⟨s, (), []⟩ (.unknown 0x2503)
    let b := Node.handlePlain e ⟨init, (), []⟩ (.unknown 0x2503)
    a.2 = .ok true ∧ a.1.trace = [.offered (.ok true)] ∧ b.2 = .ok true ∧ b.1.trace = [.offered (.ok false), .listener 0 (.ok (.bool true))] := by decide +kernel

/-- Somebody waits for a message of type `h` (on the tasks alone). -/
private def Waits (l : List Task) (h : Nat) : Prop := ∃ (i : Nat) (t : Task), l[i]? = some t ∧ t.hid = h ∧ ∀ r, t.pc ≠ .done r

private theorem Waits.set {l : List Task} {h i : Nat} {t t' : Task} (ht : l[i]? = some t) (hh : t'.hid = t.hid) (hd : t.hid = h → ∀ r, t'.pc ≠ .done r)
    (hw : Waits l h) : Waits (l.set i t') h := by
  obtain ⟨j, u, hu, e, hp⟩ := hw
  by_cases hj : i = j
  · subst hj
    rw [ht] at hu; cases hu
    exact ⟨i, t', getElem?_set_some ht, hh.trans e, hd e⟩
  · exact ⟨j, u, by rw [List.getElem?_set_ne hj]; exact hu, e, hp⟩

private theorem Waits.here {l : List Task} {i : Nat} {t : Task} (ht : l[i]? = some t) (hd : ∀ r, t.pc ≠ .done r) : Waits l t.hid := ⟨i, t, ht, rfl, hd⟩

private theorem Waits.snoc {l : List Task} {h : Nat} (t : Task) (hw : Waits l h) : Waits (l ++ [t]) h := by
  obtain ⟨j, u, hu, e, hp⟩ := hw
  exact ⟨j, u, by rw [List.getElem?_append_left (lt_of_getElem? hu)]; exact hu, e, hp⟩

/-- A call for messages of type `h` ends with `op` while its command is being sent: the send raises, the caller is cancelled, or a node does not acknowledge. -/
def EndsInSend (s : State) (op : Op) (h : Nat) : Prop :=
  ∃ i t, s.tasks[i]? = some t ∧ t.hid = h ∧ t.pc = .sending ∧ ((∃ e, op = .sendRaise i e) ∨ op = .kill i ∨ t.kind = .node ∧ op = .sendDone i false)

private theorem step_left (s : State) (op : Op) (h : Nat) (hs : ((step s op).sessions.get? h).isSome)
    (ih : (s.sessions.get? h).isSome → Waits s.tasks h ∨ EndsInSend s op h) : Waits (step s op).tasks h ∨ EndsInSend s op h := by
  have addl : ∀ h', ((addWaitingSession s h').1.sessions.get? h).isSome → h' ≠ h → (s.sessions.get? h).isSome := fun h' hs hn => by
    rwa [add_get_ne s h' h hn] at hs
  have erase : ∀ k, ((s.sessions.erase k).get? h).isSome → k ≠ h ∧ (s.sessions.get? h).isSome := fun k hk => by
    obtain ⟨v, hv⟩ := Option.isSome_iff_exists.mp hk
    obtain ⟨a, b⟩ := Dict.get?_erase_some hv
    exact ⟨a, by simp [b]⟩
  cases op with
  | call k h' to =>
    simp only [step] at hs ⊢
    by_cases e : h' = h
    · subst e
      left
      refine ⟨s.tasks.length, _, by rw [add_tasks]; exact List.getElem?_concat_length, ?_, ?_⟩ <;> cases k <;> simp
    · rcases ih (addl h' hs e) with hw | hw
      · left; rw [add_tasks]; exact hw.snoc _
      · exact .inr hw
  | tick => exact ih hs
  | message m =>
    have : (s.sessions.get? h).isSome := by
      simp only [step, messageReceived] at hs
      split at hs
      · exact hs
      · split at hs <;> exact (erase _ hs).2
    rcases ih this with hw | hw
    · left; simp only [step]; rw [msg_tasks]; exact hw
    · exact .inr hw
  | sendDone i ok =>
    cases ht : s.tasks[i]? with
    | none => simp only [step, ht] at hs ⊢; exact ih hs
    | some t =>
      simp only [step, ht] at hs ⊢
      split at hs <;> rename_i hp
      · rw [if_pos hp]; exact ih hs
      · rw [if_neg hp]
        split at hs <;> rename_i hk hf
        · split at hs <;> rename_i hok
          · simp only [if_pos hok]
            by_cases e : t.hid = h
            · left
              subst e
              exact ⟨i, _, getElem?_set_some (by rw [add_tasks]; exact ht), rfl, nofun⟩
            · rcases ih (addl _ hs e) with hw | hw
              · exact .inl (Waits.set (t := t) (by rw [add_tasks]; exact ht) rfl (fun h => absurd h e) (by rw [add_tasks]; exact hw))
              · exact .inr hw
          · by_cases e : t.hid = h
            · right
              exact ⟨i, t, ht, e, Decidable.not_not.mp hp, .inr (.inr ⟨hf, by simpa using hok⟩)⟩
            · rw [if_neg hok]
              rcases ih hs with hw | hw
              · exact .inl (hw.set ht rfl (fun h => absurd h e))
              · exact .inr hw
        · rcases ih hs with hw | hw
          · exact .inl (hw.set ht rfl (fun _ => nofun))
          · exact .inr hw
        · exact ih hs
  | sendRaise i e =>
    cases ht : s.tasks[i]? with
    | none => simp only [step, ht] at hs ⊢; exact ih hs
    | some t =>
      simp only [step, ht] at hs ⊢
      split at hs <;> rename_i hp
      · rw [if_pos hp]; exact ih hs
      · rw [if_neg hp]
        by_cases e' : t.hid = h
        · exact .inr ⟨i, t, ht, e', Decidable.not_not.mp hp, .inl ⟨e, rfl⟩⟩
        · rcases ih hs with hw | hw
          · exact .inl (hw.set ht rfl (fun h => absurd h e'))
          · exact .inr hw
  | timer i =>
    cases ht : s.tasks[i]? with
    | none => simp only [step, ht] at hs ⊢; exact ih hs
    | some t =>
      simp only [step, ht] at hs ⊢
      split at hs <;> rename_i hp
      · rw [if_pos hp]
        rcases ih hs with hw | hw
        · exact .inl (hw.set ht rfl (fun _ => nofun))
        · exact .inr hw
      · rw [if_neg hp]; exact ih hs
  | resume i =>
    cases ht : s.tasks[i]? with
    | none => simp only [step, ht] at hs ⊢; exact ih hs
    | some t =>
      simp only [step, ht, finish] at hs ⊢
      split at hs <;> rename_i hp
      · rw [if_pos hp]
        split at hs
        · exact ih hs
        · split at hs
          · obtain ⟨hn, hs⟩ := erase _ hs
            rcases ih hs with hw | hw
            · exact .inl (hw.set ht rfl (fun h => absurd h hn))
            · exact .inr hw
          · obtain ⟨hn, hs⟩ := erase _ hs
            rcases ih hs with hw | hw
            · exact .inl (hw.set ht rfl (fun h => absurd h hn))
            · exact .inr hw
          · split at hs <;> rename_i hq
            · rw [if_pos hq]
              rcases ih hs with hw | hw
              · exact .inl (hw.set ht rfl (fun _ => nofun))
              · exact .inr hw
            · rw [if_neg hq]; exact ih hs
      · rw [if_neg hp]; exact ih hs
  | cancelDone i =>
    cases ht : s.tasks[i]? with
    | none => simp only [step, ht] at hs ⊢; exact ih hs
    | some t =>
      simp only [step, ht, finish] at hs ⊢
      split at hs <;> rename_i hp
      · rw [if_pos hp]
        obtain ⟨hn, hs⟩ := erase _ hs
        rcases ih hs with hw | hw
        · exact .inl (hw.set ht rfl (fun h => absurd h hn))
        · exact .inr hw
      · rw [if_neg hp]; exact ih hs
  | kill i =>
    cases ht : s.tasks[i]? with
    | none => simp only [step, ht] at hs ⊢; exact ih hs
    | some t =>
      simp only [step, ht, finish] at hs ⊢
      split at hs <;> rename_i hp
      · exact ih hs
      · by_cases e' : t.hid = h
        · exact .inr ⟨i, t, ht, e', hp, .inr (.inl rfl)⟩
        · rcases ih hs with hw | hw
          · exact .inl (hw.set ht rfl (fun h => absurd h e'))
          · exact .inr hw
      · split at hs
        · exact ih hs
        · split at hs <;>
          · obtain ⟨hn, hs⟩ := erase _ hs
            rcases ih hs with hw | hw
            · exact .inl (hw.set ht rfl (fun h => absurd h hn))
            · exact .inr hw

/-- **C123, partial.** A message that nobody waits for is not taken, unless a call for its type has ended while its command was being sent: by an exception, by cancellation or, for
a node, without acknowledgement. -/
theorem C123_partial (ops : List Op) (m : Msg) (hw : ¬ SomebodyWaits (run init ops) m.hid)
    (he : ∀ pre op post, ops = pre ++ op :: post → ¬ EndsInSend (run init pre) op m.hid) : (messageReceived (run init ops) m).2 = .ok false := by
  have key : ∀ ops : List Op, ((run init ops).sessions.get? m.hid).isSome →
      Waits (run init ops).tasks m.hid ∨ ∃ pre op post, ops = pre ++ op :: post ∧ EndsInSend (run init pre) op m.hid := by
    intro ops
    refine Conn.snoc_ind (P := fun ops => ((run init ops).sessions.get? m.hid).isSome →
      Waits (run init ops).tasks m.hid ∨ ∃ pre op post, ops = pre ++ op :: post ∧ EndsInSend (run init pre) op m.hid) ?_ ?_ ops
    · intro h; cases h
    · intro l op ih hs
      have e : run init (l ++ [op]) = step (run init l) op := by rw [run_append]; rfl
      rw [e] at hs ⊢
      by_cases hb : ∃ pre op post, l = pre ++ op :: post ∧ EndsInSend (run init pre) op m.hid
      · obtain ⟨pre, o, post, e, h⟩ := hb
        exact .inr ⟨pre, o, post ++ [op], by simp [e], h⟩
      · rcases step_left _ op m.hid hs (fun h => .inl ((ih h).resolve_right hb)) with h | h
        · exact .inl h
        · exact .inr ⟨l, op, [], rfl, h⟩
  cases hg : (run init ops).sessions.get? m.hid with
  | none => simp [messageReceived, hg]
  | some f =>
    rcases key ops (by simp [hg]) with h | ⟨pre, op, post, e, h⟩
    · exact absurd h hw
    · exact absurd h (he pre op post e)

/-- **C123, partial.** What is left behind takes one message: the next one of the type is told, unless somebody has begun to wait in between. -/
theorem C123_once (s : State) (m m' : Msg) (h : m'.hid = m.hid) : (messageReceived (step s (.message m)) m').2 = .ok false := by
  have : (step s (.message m)).sessions.get? m'.hid = none := by
    rw [h]
    simp only [step, messageReceived]
    split
    · assumption
    · split <;> exact Dict.get?_erase_self _ _
  simp [messageReceived, this]

/-- The hypotheses of the partial theorem hold for calls that ended otherwise. -/
example : (messageReceived (run init [.call .node 0x2503 1, .sendDone 0 true, .tick, .timer 0, .resume 0, .cancelDone 0]) (.unknown 0x2503)).2 = .ok false ∧
    (messageReceived (run init [.call .plain 0x2503 1, .kill 0]) (.unknown 0x2503)).2 = .ok false ∧
    (messageReceived (run init [.call .adapter 0x2503 1, .kill 0]) (.unknown 0x2503)).2 = .ok true := by decide +kernel

end Props.Leftover

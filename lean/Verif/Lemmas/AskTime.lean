import Verif.Lemmas.Delivery
import Verif.Lemmas.Ends
/-! Helper lemmas: when the calls of the gateway give up. -/
namespace Model.Waiter

/-- The call `i` does not raise TimeoutError before `T`. -/
def GivesUp (T i : Nat) (s : State) (k : Kind := .adapter) : Prop :=
  ∃ t, s.tasks[i]? = some t ∧ t.kind = k ∧
    match t.pc with
    | .sending => T ≤ s.now + t.timeout
    | .waiting => T ≤ t.deadline
    | .timedOut => T ≤ s.now
    | .cancelling => T ≤ s.now
    | .done r => r = .error .timeout → T ≤ s.now

theorem GivesUp.step {T i : Nat} {s : State} {k : Kind} (h : GivesUp T i s k) (o : Op) (ho : o ≠ .sendRaise i .timeout) (hd : k = .node → o ≠ .sendDone i false) :
    GivesUp T i (Waiter.step s o) k := by
  obtain ⟨t, ht, hk, h⟩ := h
  have hlt := lt_of_getElem? ht
  have hnow := now_step s o
  have same : (Waiter.step s o).tasks[i]? = some t → GivesUp T i (Waiter.step s o) k := by
    intro e
    refine ⟨t, e, hk, ?_⟩
    cases hp : t.pc <;> rw [hp] at h <;> simp only at h ⊢
    · omega
    · exact h
    · omega
    · omega
    · intro e; have := h e; omega
  have key : ∀ t' : Task, (Waiter.step s o).tasks = s.tasks.set i t' → t'.kind = k → (match t'.pc with
      | .sending => T ≤ s.now + t'.timeout
      | .waiting => T ≤ t'.deadline
      | .timedOut => T ≤ s.now
      | .cancelling => T ≤ s.now
      | .done r => r = .error .timeout → T ≤ s.now) → GivesUp T i (Waiter.step s o) k := by
    intro t' e hk' h'
    refine ⟨t', by rw [e]; exact List.getElem?_set_self hlt, hk', ?_⟩
    cases hp : t'.pc <;> rw [hp] at h' <;> simp only at h' ⊢
    · omega
    · exact h'
    · omega
    · omega
    · intro e; have := h' e; omega
  by_cases hn : o.target = some i
  · cases o <;> simp only [Op.target, Option.some.injEq, reduceCtorEq] at hn <;> subst hn
    · rename_i b
      by_cases hp : t.pc = .sending
      · by_cases hkn : t.kind = .node
        · cases b with
          | false => exact absurd rfl (hd (hk.symm.trans hkn))
          | true =>
            refine key { t with fut := some (addWaitingSession s t.hid).2, deadline := s.now + t.timeout, pc := .waiting } ?_ hk (by simp only [hp] at h; exact h)
            simp only [Waiter.step, ht, hp, hkn, ne_eq, not_true_eq_false, if_false, if_true, add_tasks, add_now]
        · cases hf : t.fut with
          | none =>
            refine same ?_
            simp only [Waiter.step, ht, hp, hf, ne_eq, not_true_eq_false, if_false]
          | some f =>
            refine key { t with deadline := s.now + t.timeout, pc := .waiting } ?_ hk (by simp only [hp] at h; exact h)
            simp only [Waiter.step, ht, hp, hf, ne_eq, not_true_eq_false, if_false]
      · exact same (by simp only [Waiter.step, ht, ne_eq, hp, not_false_eq_true, if_true])
    · rename_i e
      by_cases hp : t.pc = .sending
      · refine key { t with pc := .done (.error e) } (by simp only [Waiter.step, ht, hp, ne_eq, not_true_eq_false, if_false]) hk ?_
        intro e'; cases e'; exact absurd rfl ho
      · exact same (by simp only [Waiter.step, ht, ne_eq, hp, not_false_eq_true, if_true])
    · by_cases hp : t.pc = .waiting ∧ t.deadline ≤ s.now
      · refine key { t with pc := .timedOut } (by simp only [Waiter.step, ht, if_pos hp]) hk ?_
        rw [hp.1] at h; exact Nat.le_trans h hp.2
      · exact same (by simp only [Waiter.step, ht, if_neg hp])
    · rename_i i
      by_cases hp : t.pc = .waiting ∨ t.pc = .timedOut
      · cases hf : t.fut with
        | none => exact same (by simp only [Waiter.step, ht, if_pos hp, hf])
        | some f =>
          cases hff : s.futs[f]? with
          | none =>
            by_cases hto : t.pc = .timedOut
            · exact key { t with pc := .cancelling } (by simp only [Waiter.step, ht, if_pos hp, hf, hff, if_pos hto]) hk (by rw [hto] at h; exact h)
            · exact same (by simp only [Waiter.step, ht, if_pos hp, hf, hff, if_neg hto])
          | some x =>
            cases x with
            | pending =>
              by_cases hto : t.pc = .timedOut
              · exact key { t with pc := .cancelling } (by simp only [Waiter.step, ht, if_pos hp, hf, hff, if_pos hto]) hk (by rw [hto] at h; exact h)
              · exact same (by simp only [Waiter.step, ht, if_pos hp, hf, hff, if_neg hto])
            | cancelled => exact key { t with pc := .done (.error .cancelled) } (by simp only [Waiter.step, ht, if_pos hp, hf, hff, finish]) hk (fun e => by cases e)
            | result m => exact key { t with pc := .done (.ok m) } (by simp only [Waiter.step, ht, if_pos hp, hf, hff, finish]) hk (fun e => by cases e)
      · exact same (by simp only [Waiter.step, ht, if_neg hp])
    · by_cases hp : t.pc = .cancelling
      · exact key { t with pc := .done (.error .timeout) } (by simp only [Waiter.step, ht, if_pos hp, finish]) hk (fun _ => by rw [hp] at h; exact h)
      · exact same (by simp only [Waiter.step, ht, if_neg hp])
    · rename_i i
      have hk' : (Waiter.step s (.kill i)).tasks = s.tasks ∨ (Waiter.step s (.kill i)).tasks = s.tasks.set i { t with pc := .done (.error .cancelled) } := by
        simp only [Waiter.step, ht, finish]
        split
        · exact .inl rfl
        · exact .inr rfl
        · split
          · exact .inl rfl
          · split <;> exact .inr rfl
      rcases hk' with e | e
      · exact same (by rw [e]; exact ht)
      · exact key _ e hk (fun e => by cases e)
  · exact same (step_task_other s o i t ht hn)

theorem GivesUp.call (s : State) (h to : Nat) (k : Kind := .adapter) : GivesUp (s.now + to) s.tasks.length (Waiter.step s (.call k h to)) k :=
  ⟨_, call_task s k h to, by cases k <;> rfl, by cases k <;> simp [Waiter.step, add_now]⟩

theorem GivesUp.run {T i : Nat} {k : Kind} (ops : List Op) : ∀ {s : State}, GivesUp T i s k → .sendRaise i .timeout ∉ ops → (k = .node → .sendDone i false ∉ ops) →
    GivesUp T i (Waiter.run s ops) k := by
  induction ops with
  | nil => intro s h _ _; exact h
  | cons o ops ih =>
    intro s h h1 h2
    exact ih (h.step o (fun e => h1 (by simp [e])) (fun hk e => h2 hk (by simp [e]))) (fun e => h1 (by simp [e])) (fun hk e => h2 hk (by simp [e]))

end Model.Waiter

namespace Model.Conn

/-- A call of `send` that has begun to wait never ends with TimeoutError. -/
def Begun (k : Nat) (c : State) : Prop := ∃ u, c.sends[k]? = some u ∧ u.pc ≠ .done (.error .timeout)

theorem Begun.step {k : Nat} {c : State} (h : Begun k c) (o : Op) : Begun k (Conn.step c o) := by
  obtain ⟨u, hu, hp⟩ := h
  obtain ⟨u', hu', tr⟩ := step_send c o k u hu
  refine ⟨u', hu', ?_⟩
  cases tr <;> first | exact hp | simp

/-- What an operation does to the waiting calls. -/
theorem step_one (c : State) (o : Op) : (Conn.step c o).w = c.w ∨ ∃ o', (Conn.step c o).w = Waiter.step c.w o' ∧ ((∃ m, o' = .message m) ∨ o' = .tick ∨ o = .waiter o') := by
  cases o with
  | tick => exact .inr ⟨.tick, rfl, .inr (.inl rfl)⟩
  | waiter o =>
    cases o with
    | message m => exact .inl rfl
    | tick => exact .inl rfl
    | _ => exact .inr ⟨_, rfl, .inr (.inr rfl)⟩
  | packet b =>
    simp only [step]
    have hack : ∀ p : Msg, (match ackReceived c p with
          | (s, .ok _) => (s, Except.ok true)
          | (s, .error e) => (s, Except.error e) : State × Py Bool).1.w = c.w := by
      intro p
      have := ackReceived_w c p
      split <;> (rename_i h; rw [h] at this; exact this)
    have hcmd : ∀ p : Msg, let w' := (match commandReceived c p with
          | (s, .ok _) => (s, Except.ok true)
          | (s, .error e) => (s, Except.error e) : State × Py Bool).1.w
        w' = c.w ∨ ∃ o', w' = Waiter.step c.w o' ∧ ((∃ m, o' = .message m) ∨ o' = .tick ∨ Op.packet b = .waiter o') := by
      intro p w'
      have hw : w' = (commandReceived c p).1.w := by
        simp only [w']; split <;> (rename_i h; rw [h])
      rcases commandReceived_w c p with h | ⟨m, -, h⟩
      · exact .inl (hw.trans h)
      · exact .inr ⟨_, hw.trans h, .inl ⟨m, rfl⟩⟩
    unfold onPacket
    split
    · exact .inl rfl
    · rename_i p hp
      split
      · split
        · exact .inl (hack p)
        · split
          · split
            · exact .inl (hack p)
            · exact .inl rfl
          · split
            · exact .inl rfl
            · split
              · exact hcmd p
              · exact .inl rfl
      · split
        · exact .inl rfl
        · split
          · exact hcmd p
          · exact .inl rfl
  | send cmd src dst timeout => exact .inl (send_frame c cmd src dst timeout).2
  | connect => exact .inl rfl
  | timer i => left; simp only [step]; split; · rfl
               · split <;> rfl
  | resume i =>
    left
    simp only [step]
    split
    · rfl
    · split
      · split <;> rfl
      · split <;> rfl
  | cancelled i =>
    left
    simp only [step]
    split
    · rfl
    · split
      · split <;> rfl
      · rfl
  | kill i => left; simp only [step]; split; · rfl
              · split <;> rfl
  | fire k =>
    left
    simp only [step]
    split
    · rfl
    · split
      · exact (keepAlive_sends _ _).2.2.2
      · rfl

end Model.Conn

namespace Model.Gateway
open Spec

/-- What happens to the gateway's connection. `raises t e` says that the call `t` may learn that its send raised `e`. -/
inductive CEvo (raises : Nat → PyErr → Prop) : Conn.State → Conn.State → Prop
  | refl (c : Conn.State) : CEvo raises c c
  | op {c c' : Conn.State} (o : Conn.Op) : (∀ t e, o ≠ .waiter (.sendRaise t e)) → CEvo raises c c' → CEvo raises c (Conn.step c' o)
  | transmit {c c' : Conn.State} (b : Bytes) : CEvo raises c c' → CEvo raises c (Conn.transmit c' b)
  | raised {c c' : Conn.State} (t : Nat) (e : PyErr) : raises t e → CEvo raises c c' → CEvo raises c { c' with w := Waiter.step c'.w (.sendRaise t e) }

/-- Who may learn that a send failed: a call that starts now, or a coroutine whose send has failed. -/
def Raises (s : State) (t : Nat) (e : PyErr) : Prop :=
  s.conn.w.tasks.length ≤ t ∨ ∃ (j k : Nat) (a : Ask), s.jobs[j]? = some (.ask a t k) ∧ sendResult s k = some (.error e)

variable {R : Nat → PyErr → Prop}

theorem CEvo.one (c : Conn.State) (o : Conn.Op) (h : ∀ t e, o ≠ .waiter (.sendRaise t e)) : CEvo R c (Conn.step c o) := .op o h (.refl c)

theorem startSend_c (s : State) (cmd : Msg) : CEvo R s.conn (startSend s cmd).1.conn := by
  have h := CEvo.one (R := R) s.conn (.send cmd 0 0 3) (by simp)
  simp only [Conn.step] at h
  unfold startSend
  generalize Conn.send s.conn cmd 0 0 3 = c at h ⊢
  unfold afterSend
  split <;> exact h

theorem startAsk_c (s : State) (a : Ask) (cmd : Msg) (hid timeout : Nat) (hR : ∀ e, R s.conn.w.tasks.length e) : CEvo R s.conn (startAsk s a cmd hid timeout).1.conn := by
  have e1 : ({ s.conn with w := Waiter.step s.conn.w (.call .adapter hid timeout) } : Conn.State) = Conn.step s.conn (.waiter (.call .adapter hid timeout)) := rfl
  have h1 : CEvo R s.conn (Conn.send { s.conn with w := Waiter.step s.conn.w (.call .adapter hid timeout) } cmd 0 0 3) := by
    rw [e1, show ∀ c, Conn.send c cmd 0 0 3 = Conn.step c (.send cmd 0 0 3) from fun c => by simp only [Conn.step]]
    exact .op (.send cmd 0 0 3) (by simp) (.one _ _ (by simp))
  unfold startAsk
  generalize Conn.send { s.conn with w := Waiter.step s.conn.w (.call .adapter hid timeout) } cmd 0 0 3 = c at h1 ⊢
  unfold afterAskSend
  split
  · exact .raised _ _ (hR _) h1
  · exact h1

theorem startNm_c (s : State) (c : Nm) (hR : ∀ e, R s.conn.w.tasks.length e) : CEvo R s.conn (startNm s c).1.conn := by
  simp only [startNm]
  split
  · exact .refl _
  · split
    · exact .refl _
    · split
      · exact startSend_c { s with nmSeq := s.nmSeq + 1 } _
      · exact startAsk_c { s with nmSeq := s.nmSeq + 1 } _ _ _ _ hR

theorem ipOfNode_c (s : State) (n : Nat) : CEvo R s.conn (ipOfNode s n).1.conn := by
  unfold ipOfNode lookup
  split
  · exact .refl _
  · rename_i b _
    exact .op (.waiter (.call .plain 0x5801 3)) (by simp) (.transmit b (.refl _))

theorem reportLoop_c (todo : List Nat) : ∀ s, CEvo R s.conn (reportLoop s todo).1.conn := by
  induction todo with
  | nil => intro s; exact .refl _
  | cons n todo ih =>
    intro s
    simp only [reportLoop]
    split
    · exact ih s
    · have := ipOfNode_c (R := R) s n
      split <;> (rename_i h; rw [h] at this; exact this)

theorem setupLoop_c (todo : List Nat) : ∀ s, CEvo R s.conn (setupLoop s todo).1.conn := by
  induction todo with
  | nil => intro s; exact .refl _
  | cons n todo ih =>
    intro s
    simp only [setupLoop]
    split
    · exact .refl _
    · exact ih s
    · have := ipOfNode_c (R := R) s n
      split <;> (rename_i h; rw [h] at this; exact this)

theorem connectToNode_c (s : State) (n : Nat) : CEvo R s.conn (Gateway.connectToNode s n).1.conn := by
  simp only [Gateway.connectToNode]
  split
  · exact .refl _
  · have := ipOfNode_c (R := R) s n
    split <;> (rename_i h; rw [h] at this; exact this)

theorem afterAsk_c (s : State) (a : Ask) (r : Py Msg) (order : List Nat) : CEvo R s.conn (afterAsk s a r order).1.conn := by
  unfold afterAsk
  split
  · exact .refl _
  · exact .refl _
  · rename_i m
    obtain ⟨i, n, r, h⟩ := storeList_frame s m
    rw [h]
    cases r <;> exact .refl _
  · exact .refl _
  · rename_i m
    obtain ⟨i, n, r, h⟩ := storeList_frame s m
    rw [h]
    cases r with
    | error e => exact .refl _
    | ok l => exact setupLoop_c (iter l order) { s with nodeId := i, nodes := n }
  · exact .refl _
  · split
    · exact .refl _
    · split
      · exact .refl _
      · exact startSend_c _ _
  · exact .refl _
  · exact .refl _

theorem stepJob_c (s : State) (i : Nat) (order : List Nat) : CEvo (Raises s) s.conn (stepJob s i order).conn := by
  simp only [stepJob]
  split
  · exact .refl _
  · split <;> exact .refl _
  · rename_i a t k hj
    split
    · exact afterAsk_c _ _ _ _
    · split
      · exact .refl _
      · rename_i b _
        exact .one s.conn (.waiter (.sendDone t b)) (by simp)
      · rename_i e he
        exact .raised t e (.inr ⟨i, k, a, hj, he⟩) (.refl _)
  · split
    · exact .refl _
    · exact .refl _
    · rename_i _ n todo t _ _ m _
      exact reportLoop_c todo { s with nodes := s.nodes.set n (advertised m) }
  · split
    · exact .refl _
    · exact .refl _
    · rename_i _ n todo t _ _ m _
      exact setupLoop_c todo { s with nodes := s.nodes.set n (advertised m) }
  · split
    · exact .refl _
    · exact .refl _
    · split <;> exact .refl _
  · exact .refl _
  · exact .refl _

/-- What an operation of the gateway does to its connection. -/
theorem step_c (s : State) (op : Op) : CEvo (Raises s) s.conn (step s op).conn := by
  have hR : ∀ e, Raises s s.conn.w.tasks.length e := fun e => .inl (Nat.le_refl _)
  cases op with
  | nm c => simp only [step, State.addJob]; exact startNm_c s c hR
  | setMode mode => simp only [step, State.addJob]; exact startAsk_c s _ _ _ _ hR
  | setup order =>
    simp only [step]
    split
    · exact setupLoop_c _ _
    · split
      · exact .refl _
      · simp only [State.addJob]; exact startAsk_c { s with nmSeq := s.nmSeq + 1 } _ _ _ _ hR
  | connectToNode n => simp only [step, State.addJob]; exact connectToNode_c s n
  | opened i ok =>
    simp only [step]
    split
    · split <;> exact .refl _
    · exact .refl _
  | unsolicited pkt sender order =>
    simp only [step, onUnsolicitedMessage]
    split
    · exact .refl _
    · split
      · rename_i m _
        simp only [handleNodeListReport]
        split
        · exact .refl _
        · rename_i l _
          exact reportLoop_c (iter l order) { s with nodes := s.nodes.filter (fun p => p.1 ∈ l) }
      · split
        · exact .refl _
        · split
          · split
            · split <;> exact .refl _
            · exact .refl _
          · exact .refl _
  | job i order => exact stepJob_c s i order
  | conn o =>
    simp only [step]
    split
    · rename_i h
      refine .one _ _ ?_
      rintro t e rfl
      simp [external] at h
    · exact .refl _
  | link k o =>
    simp only [step]
    split
    · exact .refl _
    · rename_i l _
      obtain ⟨t, h⟩ := onMessageReceived_frame k ((Conn.step l.conn o).heard.drop l.conn.heard.length)
        { s with links := s.links.set k ({ l with conn := Conn.step l.conn o } : Link) }
      rw [h]; exact .refl _

theorem CEvo.begun {c c' : Conn.State} (h : CEvo R c c') {k : Nat} (hb : Conn.Begun k c) : Conn.Begun k c' := by
  induction h with
  | refl => exact hb
  | op o _ _ ih => exact ih.step o
  | transmit b _ ih =>
    obtain ⟨u, hu, hp⟩ := ih
    exact ⟨u, by rw [(Conn.transmit_sends _ b).1]; exact hu, hp⟩
  | raised t e _ _ ih => exact ih

theorem CEvo.late {c c' : Conn.State} (h : CEvo R c c') {T i : Nat} (hi : ¬ R i .timeout) (hl : Waiter.GivesUp T i c.w) : Waiter.GivesUp T i c'.w := by
  induction h with
  | refl => exact hl
  | op o ho _ ih =>
    rcases Conn.step_one _ o with e | ⟨o', e, h'⟩
    · rw [e]; exact ih
    · rw [e]
      refine ih.step o' ?_ nofun
      rintro rfl
      rcases h' with ⟨m, h⟩ | h | h
      · cases h
      · cases h
      · exact ho _ _ h
  | transmit b _ ih => rw [(Conn.transmit_sends _ b).2.2.2.1]; exact ih
  | raised t e hr _ ih =>
    refine ih.step _ ?_ nofun
    intro h
    cases h
    exact hi hr

theorem CEvo.now {c c' : Conn.State} (h : CEvo R c c') : c.w.now ≤ c'.w.now := by
  induction h with
  | refl => exact Nat.le_refl _
  | op o ho _ ih =>
    rcases Conn.step_one _ o with e | ⟨o', e, h'⟩
    · rw [e]; exact ih
    · rw [e]; exact Nat.le_trans ih (Waiter.now_step _ _)
  | transmit b _ ih => rw [(Conn.transmit_sends _ b).2.2.2.1]; exact ih
  | raised t e hr _ ih => exact Nat.le_trans ih (Waiter.now_step _ _)

/-- The sends of all coroutines that ask have begun to wait. -/
def Asking (s : State) : Prop := ∀ (j : Nat) (a : Ask) (t k : Nat), s.jobs[j]? = some (.ask a t k) → Conn.Begun k s.conn

theorem afterAskSend_begun (s : State) (a a' : Ask) (t k t' k' : Nat) (c : Conn.State) (hk : k < c.sends.length) (h : (afterAskSend s a t c k).2 = .ask a' t' k') :
    Conn.Begun k' (afterAskSend s a t c k).1.conn := by
  simp only [afterAskSend] at h ⊢
  split at h
  · cases h
  · rename_i he
    cases h
    obtain ⟨u, hu⟩ : ∃ u, c.sends[k]? = some u := ⟨_, List.getElem?_eq_getElem hk⟩
    refine ⟨u, hu, fun hp => ?_⟩
    simp [sendError, hu, hp] at he

theorem send_len (c : Conn.State) (cmd : Msg) (src dst : Int) (timeout : Nat) : (Conn.send c cmd src dst timeout).sends.length = c.sends.length + 1 := by
  rcases Conn.send_cases c cmd src dst timeout with ⟨e, -, -, h⟩ | ⟨b, -, -, -, h⟩ | ⟨b, -, -, -, h⟩ <;> rw [h] <;> simp

theorem startAsk_begun (s : State) (a a' : Ask) (cmd : Msg) (hid timeout t' k' : Nat) (h : (startAsk s a cmd hid timeout).2 = .ask a' t' k') :
    Conn.Begun k' (startAsk s a cmd hid timeout).1.conn := by
  unfold startAsk at h ⊢
  refine afterAskSend_begun _ _ _ _ _ _ _ _ ?_ h
  rw [send_len]
  exact Nat.lt_succ_self _

theorem startNm_begun (s : State) (c : Nm) (a' : Ask) (t' k' : Nat) (h : (startNm s c).2 = .ask a' t' k') : Conn.Begun k' (startNm s c).1.conn := by
  unfold startNm at h ⊢
  dsimp only at h ⊢
  split
  · rename_i hc; rw [if_pos hc] at h; cases h
  · rename_i hc
    rw [if_neg hc] at h
    split
    · rename_i he; rw [he] at h; cases h
    · rename_i cmd he
      rw [he] at h
      dsimp only at h ⊢
      split
      · rename_i hw
        rw [hw] at h
        dsimp only [startSend, afterSend] at h
        split at h <;> cases h
      · rename_i hid timeout hw
        rw [hw] at h
        exact startAsk_begun _ _ _ _ _ _ _ _ h

theorem reportLoop_noAsk (todo : List Nat) : ∀ (s : State) (a : Ask) (t k : Nat), (reportLoop s todo).2 ≠ .ask a t k := by
  induction todo with
  | nil => intro s a t k h; cases h
  | cons n todo ih =>
    intro s a t k
    simp only [reportLoop]
    split
    · exact ih s a t k
    · split <;> (intro h; cases h)

theorem setupLoop_noAsk (todo : List Nat) : ∀ (s : State) (a : Ask) (t k : Nat), (setupLoop s todo).2 ≠ .ask a t k := by
  induction todo with
  | nil => intro s a t k h; cases h
  | cons n todo ih =>
    intro s a t k
    simp only [setupLoop]
    split
    · intro h; cases h
    · exact ih s a t k
    · split <;> (intro h; cases h)

theorem afterAsk_noAsk (s : State) (b : Ask) (r : Py Msg) (order : List Nat) (a : Ask) (t k : Nat) : (afterAsk s b r order).2 ≠ .ask a t k := by
  unfold afterAsk
  split
  · intro h; cases h
  · intro h; cases h
  · split <;> (intro h; cases h)
  · intro h; cases h
  · split
    · exact setupLoop_noAsk _ _ _ _ _
    · intro h; cases h
  · intro h; cases h
  · split
    · intro h; cases h
    · split
      · intro h; cases h
      · unfold startSend
        generalize Conn.send s.conn _ 0 0 3 = c
        unfold afterSend
        split <;> (intro h; cases h)
  · intro h; cases h
  · intro h; cases h

/-- A coroutine that asks was there before, or starts now and its send has begun to wait. -/
theorem jobs_ask (s : State) (op : Op) (j : Nat) (a : Ask) (t k : Nat) (h : (step s op).jobs[j]? = some (.ask a t k)) :
    s.jobs[j]? = some (.ask a t k) ∨ Conn.Begun k (step s op).conn := by
  have hadd : ∀ x : Job, (s.jobs ++ [x])[j]? = some (.ask a t k) → s.jobs[j]? = some (.ask a t k) ∨ x = .ask a t k := by
    intro x hx
    by_cases hj : j < s.jobs.length
    · rw [List.getElem?_append_left hj] at hx; exact .inl hx
    · rw [List.getElem?_append_right (by omega)] at hx
      have := List.mem_of_getElem? hx
      simp at this
      exact .inr this.symm
  have hset : ∀ (i : Nat) (x : Job), (s.jobs.set i x)[j]? = some (.ask a t k) → x ≠ .ask a t k → s.jobs[j]? = some (.ask a t k) := by
    intro i x hx hn
    rw [List.getElem?_set] at hx
    split at hx
    · split at hx
      · exact absurd (Option.some.inj hx) hn
      · cases hx
    · exact hx
  cases op with
  | nm c =>
    simp only [step, State.addJob] at h ⊢
    obtain ⟨k', x, hf⟩ := startNm_frame s c
    have hb := startNm_begun s c a t k
    rw [hf] at h hb ⊢
    rcases hadd x h with h | h
    · exact .inl h
    · exact .inr (hb h)
  | setMode mode =>
    simp only [step, State.addJob] at h ⊢
    have hb := startAsk_begun s (.mode mode) a (.known Reg.ZipGateway.GatewayModeGet.hid []) 0x5F03 3 t k
    obtain ⟨c', x, hf⟩ := startAsk_frame s (.mode mode) (.known Reg.ZipGateway.GatewayModeGet.hid []) 0x5F03 3
    rw [hf] at h hb ⊢
    rcases hadd x h with h | h
    · exact .inl h
    · exact .inr (hb h)
  | setup order =>
    simp only [step] at h ⊢
    split
    · rename_i hn
      rw [if_pos hn] at h
      have hb := setupLoop_noAsk (iter s.nodes.keys order) s a t k
      obtain ⟨c', x, hf⟩ := setupLoop_frame (iter s.nodes.keys order) s
      rw [hf] at h hb
      rcases hadd x h with h | h
      · exact .inl h
      · exact absurd h hb
    · rename_i hn
      rw [if_neg hn] at h
      split
      · rename_i he
        rw [he] at h
        rcases hadd _ h with h | h
        · exact .inl h
        · cases h
      · rename_i cmd he
        rw [he] at h
        have hb := startAsk_begun { s with nmSeq := s.nmSeq + 1 } .setup a cmd 0x5202 3 t k
        obtain ⟨c', x, hf⟩ := startAsk_frame { s with nmSeq := s.nmSeq + 1 } .setup cmd 0x5202 3
        simp only [State.addJob] at h ⊢
        rw [hf] at h hb ⊢
        rcases hadd x h with h | h
        · exact .inl h
        · exact .inr (hb h)
  | connectToNode n =>
    simp only [step, State.addJob] at h
    obtain ⟨c', x, hf⟩ := connectToNode_frame s n
    have hb : (Gateway.connectToNode s n).2 ≠ .ask a t k := by
      simp only [Gateway.connectToNode]
      split
      · intro h; cases h
      · split <;> (intro h; cases h)
    rw [hf] at h hb
    rcases hadd x h with h | h
    · exact .inl h
    · exact absurd h hb
  | opened i ok =>
    left
    simp only [step] at h
    split at h
    · split at h <;> exact hset i _ h (by simp)
    · exact h
  | unsolicited pkt sender order =>
    left
    simp only [step, onUnsolicitedMessage] at h
    split at h
    · exact h
    · split at h
      · rename_i m _
        obtain ⟨c, k', n, x, hf⟩ := handle_frame s m order
        have hb : (handleNodeListReport s m order).2 ≠ .ask a t k := by
          simp only [handleNodeListReport]
          split
          · intro h; cases h
          · exact reportLoop_noAsk _ _ _ _ _
        rw [hf] at h hb
        rcases hadd x h with h | h
        · exact h
        · exact absurd h hb
      · split at h
        · exact h
        · split at h
          · split at h
            · split at h <;> exact h
            · exact h
          · exact h
  | job i order =>
    left
    simp only [step, stepJob] at h
    split at h
    · exact h
    · split at h
      · exact h
      · exact hset i _ h (by simp)
      · exact hset i _ h (by simp)
    · split at h
      · rename_i _ b t' k' _ _ r _
        obtain ⟨c, d, n, x, hf⟩ := afterAsk_frame s b r order
        have hb := afterAsk_noAsk s b r order a t k
        rw [hf] at h hb
        exact hset i _ h hb
      · split at h <;> exact h
    · split at h
      · exact h
      · exact hset i _ h (by simp)
      · rename_i _ n todo t' _ _ m' _
        obtain ⟨c, k', x, hf⟩ := reportLoop_frame todo { s with nodes := s.nodes.set n (advertised m') }
        have hb := reportLoop_noAsk todo { s with nodes := s.nodes.set n (advertised m') } a t k
        rw [hf] at h hb
        exact hset i _ h hb
    · split at h
      · exact h
      · exact hset i _ h (by simp)
      · rename_i _ n todo t' _ _ m' _
        obtain ⟨c, x, hf⟩ := setupLoop_frame todo { s with nodes := s.nodes.set n (advertised m') }
        have hb := setupLoop_noAsk todo { s with nodes := s.nodes.set n (advertised m') } a t k
        rw [hf] at h hb
        exact hset i _ h hb
    · split at h
      · exact h
      · exact hset i _ h (by simp)
      · split at h <;> exact hset i _ h (by simp)
    · exact h
    · exact h
  | conn o => left; simp only [step] at h; split at h <;> exact h
  | link k' o =>
    left
    simp only [step] at h
    split at h
    · exact h
    · rename_i l _
      obtain ⟨t', hf⟩ := onMessageReceived_frame k' ((Conn.step l.conn o).heard.drop l.conn.heard.length)
        { s with links := s.links.set k' ({ l with conn := Conn.step l.conn o } : Link) }
      rw [hf] at h; exact h

theorem Asking.step {s : State} (h : Asking s) (op : Op) : Asking (Gateway.step s op) := by
  intro j a t k hj
  rcases jobs_ask s op j a t k hj with hj | hj
  · exact (step_c s op).begun (h j a t k hj)
  · exact hj

theorem asking_run (ops : List Op) : Asking (run init ops) := by
  refine Conn.snoc_ind (P := fun ops => Asking (run init ops)) ?_ ?_ ops
  · intro j a t k h; simp [run, init] at h
  · intro ops op h; rw [run_snoc]; exact h.step op

/-- A call that exists does not give up early. -/
theorem GivesUp.step {s : State} (ha : Asking s) {T t : Nat} (h : Waiter.GivesUp T t s.conn.w) (op : Op) : Waiter.GivesUp T t (Gateway.step s op).conn.w := by
  refine (step_c s op).late ?_ h
  rintro (hl | ⟨j, k, a, hj, he⟩)
  · obtain ⟨u, hu, -⟩ := h
    have := Waiter.lt_of_getElem? hu
    omega
  · obtain ⟨u, hu, hp⟩ := ha j a t k hj
    simp only [sendResult, hu] at he
    split at he
    · rename_i r hr
      cases he
      exact hp hr
    · cases he

end Model.Gateway

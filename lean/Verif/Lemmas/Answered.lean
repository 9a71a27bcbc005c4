import Verif.Lemmas.System
import Verif.Lemmas.Origin
import Verif.Props.ToNode
/-! Helper lemmas: a call that can still be answered. -/
namespace Model.Waiter

/-- The call of `Node.sendAndReceive` is still sending, and no session is registered for its type. -/
def Unheard (s : State) (i h : Nat) : Prop :=
  ∃ t, s.tasks[i]? = some t ∧ t.hid = h ∧ t.kind = .node ∧ t.pc = .sending ∧ s.sessions.get? h = none ∧
    ∀ (j : Nat) (u : Task), j ≠ i → s.tasks[j]? = some u → u.hid = h → ∃ r, u.pc = .done r

/-- The call can still be answered, or has been. -/
def Hopeful (s : State) (i h : Nat) : Prop := Alone s i h ∨ Unheard s i h ∨ ∃ m, Resolved s i m

/-- A call for the type. -/
def Op.asks (h : Nat) : Op → Prop
  | .call _ h' _ => h' = h
  | _ => False

/-- No session appears for a type that nobody asks for. -/
theorem no_session {s : State} {h : Nat} (hs : s.sessions.get? h = none) {op : Op} (hop : ¬ op.asks h)
    (hother : ∀ (j : Nat) (u : Task), op.target = some j → s.tasks[j]? = some u → u.hid = h → ∃ r, u.pc = .done r) : (step s op).sessions.get? h = none := by
  have herase : ∀ k, (s.sessions.erase k).get? h = none := by
    intro k
    by_cases e : k = h
    · subst e; exact Dict.get?_erase_self _ _
    · rw [Dict.get?_erase_ne _ e]; exact hs
  have hfin : ∀ (i : Nat) (t : Task) (r : Res) (fs : List Fut), (finish { s with futs := fs } i t r).sessions.get? h = none := fun i t r fs => herase _
  have hfin' : ∀ (i : Nat) (t : Task) (r : Res), (finish s i t r).sessions.get? h = none := fun i t r => herase _
  cases op with
  | call k h' to =>
    have : h' ≠ h := hop
    simp only [step]
    rw [add_get_ne s h' h this]; exact hs
  | message m =>
    simp only [step, messageReceived]
    split
    · exact hs
    · split <;> exact herase _
  | tick => exact hs
  | sendDone j ok =>
    simp only [step]
    split
    · exact hs
    · rename_i t ht
      split
      · exact hs
      · rename_i hpc
        have hne : t.hid ≠ h := by
          intro e
          obtain ⟨r, hr⟩ := hother j t rfl ht e
          rw [hr] at hpc
          exact hpc (by simp)
        split
        · split
          · rw [add_get_ne s _ h hne]; exact hs
          · exact hs
        · exact hs
        · exact hs
  | sendRaise j e =>
    simp only [step]
    split
    · exact hs
    · split <;> exact hs
  | timer j =>
    simp only [step]
    split
    · exact hs
    · split <;> exact hs
  | resume j =>
    simp only [step]
    split
    · exact hs
    · split
      · split
        · exact hs
        · split
          · exact hfin' _ _ _
          · exact hfin' _ _ _
          · split <;> exact hs
      · exact hs
  | cancelDone j =>
    simp only [step]
    split
    · exact hs
    · split
      · exact hfin' _ _ _
      · exact hs
  | kill j =>
    simp only [step]
    split
    · exact hs
    · split
      · exact hs
      · exact hs
      · split
        · exact hs
        · split
          · exact hfin _ _ _ _
          · exact hfin' _ _ _

theorem others_done {s : State} {i h : Nat} (hoth : ∀ (j : Nat) (u : Task), j ≠ i → s.tasks[j]? = some u → u.hid = h → ∃ r, u.pc = .done r) {op : Op} (hop : ¬ op.asks h) :
    ∀ (j : Nat) (u : Task), j ≠ i → (step s op).tasks[j]? = some u → u.hid = h → ∃ r, u.pc = .done r := by
  intro j u hj hu hu'
  rcases step_task_back s op j u hu with ⟨k, h', to, e1, e2⟩ | ⟨u', a, b, c⟩
  · subst e1
    exact absurd (e2.symm.trans hu') hop
  · obtain ⟨r, hr⟩ := hoth j u' hj a (b.trans hu')
    exact ⟨r, by rw [c ⟨r, hr⟩]; exact hr⟩

/-- Whatever happens, the call can still be answered or its time is over, unless it is cancelled, its send fails or somebody else waits for the same type. -/
theorem Hopeful.step {tag : Nat → Nat} {s : State} (hi : Inv tag s) {i h : Nat} (ha : Hopeful s i h) {op : Op} (hop : ¬ op.asks h)
    (h1 : op ≠ .kill i) (h2 : ∀ e, op ≠ .sendRaise i e) (h3 : op ≠ .sendDone i false) : Hopeful (step s op) i h ∨ Late (step s op) i := by
  rcases ha with ha | ⟨t, ht, hh, hk, hp, hs, hoth⟩ | ⟨m, hm⟩
  · by_cases hf : op.foreign h
    · rcases ha.step hi hf h1 h2 with x | x
      · exact .inl (.inl x)
      · exact .inr x
    · left
      cases op with
      | call k h' to => exact absurd (Classical.byContradiction fun x => hf x) hop
      | message m =>
        have hm : m.hid = h := Classical.byContradiction fun x => hf x
        subst hm
        obtain ⟨f, t, hs, hf, ht, hh, hpc, hoth⟩ := id ha
        by_cases hk : t.pc = .sending ∧ t.kind = .node
        · refine .inr (.inl ⟨t, by simp only [Waiter.step, msg_tasks]; exact ht, hh, hk.2, hk.1, ?_, others_done hoth hop⟩)
          simp only [Waiter.step, messageReceived, hs, hf]
          exact Dict.get?_erase_self _ _
        · exact .inr (.inr ⟨m, ha.message ht fun e x => hk ⟨e, x⟩⟩)
      | _ => exact absurd trivial hf
  · left
    by_cases ho : op.target = some i
    · cases op with
      | sendDone j ok =>
        cases ho
        cases ok with
        | false => exact absurd rfl h3
        | true =>
          have e : Waiter.step s (.sendDone i true) = { (addWaitingSession s h).1 with
              tasks := s.tasks.set i { t with fut := some (addWaitingSession s h).2, deadline := s.now + t.timeout, pc := .waiting } } := by
            simp only [Waiter.step, ht, hp, hk, hh, add_tasks, add_now, ne_eq, not_true, if_false, if_true]
          have hot := others_done hoth (op := .sendDone i true) id
          rw [e] at hot ⊢
          refine .inl ⟨(addWaitingSession s h).2, _, add_get s h, ?_, getElem?_set_some ht, hh, .inr ⟨rfl, rfl⟩, hot⟩
          simp [addWaitingSession, hs]
      | sendRaise j e => cases ho; exact absurd rfl (h2 e)
      | timer j => cases ho; exact .inr (.inl (by simp only [Waiter.step, ht, hp]; exact ⟨t, ht, hh, hk, hp, hs, hoth⟩))
      | resume j => cases ho; exact .inr (.inl (by simp only [Waiter.step, ht, hp]; exact ⟨t, ht, hh, hk, hp, hs, hoth⟩))
      | cancelDone j => cases ho; exact .inr (.inl (by simp only [Waiter.step, ht, hp]; exact ⟨t, ht, hh, hk, hp, hs, hoth⟩))
      | kill j => cases ho; exact absurd rfl h1
      | _ => cases ho
    · exact .inr (.inl ⟨t, step_task_other s op i t ht ho, hh, hk, hp, no_session hs hop (fun j u hj hu hu' => hoth j u (by rintro rfl; exact ho hj) hu hu'), others_done hoth hop⟩)
  · exact .inl (.inr (.inr ⟨m, hm.step h1 h2⟩))

theorem Late.run {i : Nat} : ∀ (l : List Op) (s : State), Late s i → Late (Waiter.run s l) i := by
  intro l
  induction l with
  | nil => intro s h; exact h
  | cons x l ihl => intro s h; exact ihl _ (h.step x)

/-- The call has gone beyond its send and has `D` as its deadline. -/
def Past (s : State) (i D : Nat) : Prop := ∃ t, s.tasks[i]? = some t ∧ t.pc ≠ .sending ∧ t.deadline = D

theorem Past.step {s : State} {i D : Nat} (h : Past s i D) (op : Op) : Past (step s op) i D := by
  obtain ⟨t, ht, hp, hd⟩ := h
  by_cases ho : op.target = some i
  · have hs : ∀ (x : Pc), x ≠ .sending → ∃ t', (s.tasks.set i { t with pc := x })[i]? = some t' ∧ t'.pc ≠ .sending ∧ t'.deadline = D :=
      fun x hx => ⟨_, getElem?_set_some ht, hx, hd⟩
    cases op with
    | sendDone j ok => cases ho; simp only [Past, Waiter.step, ht]; rw [if_pos hp]; exact ⟨t, ht, hp, hd⟩
    | sendRaise j e => cases ho; simp only [Past, Waiter.step, ht]; rw [if_pos hp]; exact ⟨t, ht, hp, hd⟩
    | timer j => cases ho; simp only [Past, Waiter.step, ht]; split <;> first | exact hs _ (by simp) | exact ⟨t, ht, hp, hd⟩
    | resume j =>
      cases ho
      simp only [Past, Waiter.step, ht, Waiter.finish]
      split
      · split
        · exact ⟨t, ht, hp, hd⟩
        · split
          · exact hs _ (by simp)
          · exact hs _ (by simp)
          · split
            · exact hs _ (by simp)
            · exact ⟨t, ht, hp, hd⟩
      · exact ⟨t, ht, hp, hd⟩
    | cancelDone j => cases ho; simp only [Past, Waiter.step, ht, Waiter.finish]; split <;> first | exact hs _ (by simp) | exact ⟨t, ht, hp, hd⟩
    | kill j =>
      cases ho
      simp only [Past, Waiter.step, ht, Waiter.finish]
      split
      · exact ⟨t, ht, hp, hd⟩
      · exact hs _ (by simp)
      · split
        · exact ⟨t, ht, hp, hd⟩
        · split <;> exact hs _ (by simp)
    | _ => cases ho
  · exact ⟨t, step_task_other s op i t ht ho, hp, hd⟩

theorem Past.run {i D : Nat} : ∀ (l : List Op) {s : State}, Past s i D → Past (Waiter.run s l) i D := by
  intro l
  induction l with
  | nil => intro s h; exact h
  | cons x l ihl => intro s h; exact ihl (h.step x)

theorem past_sendDone {s : State} {i : Nat} {t : Task} (ht : s.tasks[i]? = some t) (hk : t.kind = .node) (hp : t.pc = .sending) :
    Past (step s (.sendDone i true)) i (s.now + t.timeout) := by
  simp only [Past, step, ht, hp, hk, add_tasks, add_now]
  exact ⟨_, getElem?_set_some ht, by simp, rfl⟩

/-- Nothing releases a call that has gone beyond its send a second time. -/
theorem Past.idle {s : State} {i D : Nat} (h : Past s i D) : (∀ b, Waiter.step s (.sendDone i b) = s) ∧ ∀ e, Waiter.step s (.sendRaise i e) = s := by
  obtain ⟨t, ht, hp, -⟩ := h
  exact ⟨fun b => by simp [Waiter.step, ht, hp], fun e => by simp [Waiter.step, ht, hp]⟩

theorem Hopeful.past_step {tag : Nat → Nat} {s : State} (hi : Inv tag s) {i h D : Nat} (ha : Hopeful s i h) (hp : Past s i D) {op : Op} (hop : ¬ op.asks h)
    (h1 : op ≠ .kill i) : Hopeful (Waiter.step s op) i h ∨ Late (Waiter.step s op) i := by
  by_cases h2 : ∃ e, op = .sendRaise i e
  · obtain ⟨e, rfl⟩ := h2
    rw [hp.idle.2]; exact .inl ha
  · by_cases h3 : op = .sendDone i false
    · rw [h3, hp.idle.1]; exact .inl ha
    · exact ha.step hi hop h1 (fun e x => h2 ⟨e, x⟩) h3

theorem Hopeful.past_run {i h D : Nat} : ∀ (ops : List Op) {tag : Nat → Nat} {s : State}, Inv tag s → Hopeful s i h → Past s i D →
    (∀ op ∈ ops, ¬ op.asks h ∧ op ≠ .kill i) → Hopeful (Waiter.run s ops) i h ∨ Late (Waiter.run s ops) i := by
  intro ops
  induction ops with
  | nil => intro tag s _ h _ _; exact .inl h
  | cons o ops ih =>
    intro tag s hi ha hp hops
    obtain ⟨tag', hi'⟩ := hi.step o
    have ho := hops o List.mem_cons_self
    rcases ha.past_step hi hp ho.1 ho.2 with h' | h'
    · exact ih hi' h' (hp.step o) fun x hx => hops x (List.mem_cons_of_mem _ hx)
    · exact .inr (h'.run ops _)

theorem Resolved.past_run {i D : Nat} {m : Msg} : ∀ (ops : List Op) {s : State}, Resolved s i m → Past s i D → .kill i ∉ ops → Resolved (Waiter.run s ops) i m := by
  intro ops
  induction ops with
  | nil => intro s h _ _; exact h
  | cons o ops ih =>
    intro s h hp hops
    refine ih ?_ (hp.step o) fun hx => hops (List.mem_cons_of_mem _ hx)
    by_cases h2 : ∃ e, o = .sendRaise i e
    · obtain ⟨e, rfl⟩ := h2
      rw [hp.idle.2]; exact h
    · exact h.step (fun e => hops (e ▸ List.mem_cons_self)) fun e x => h2 ⟨e, x⟩

/-- Until it is released a call goes on sending. -/
theorem Hopeful.sending_run {i h : Nat} {t : Task} (hp : t.pc = .sending) : ∀ (ops : List Op) {tag : Nat → Nat} {s : State}, Inv tag s → Hopeful s i h → s.tasks[i]? = some t →
    (∀ op ∈ ops, ¬ op.asks h ∧ op ≠ .kill i ∧ (∀ b, op ≠ .sendDone i b) ∧ ∀ e, op ≠ .sendRaise i e) →
    (∃ tag', Inv tag' (Waiter.run s ops)) ∧ Hopeful (Waiter.run s ops) i h ∧ (Waiter.run s ops).tasks[i]? = some t := by
  intro ops
  induction ops with
  | nil => intro tag s hi h ht _; exact ⟨⟨tag, hi⟩, h, ht⟩
  | cons o ops ih =>
    intro tag s hi ha ht hops
    obtain ⟨tag', hi'⟩ := hi.step o
    obtain ⟨h1, h2, h3, h4⟩ := hops o List.mem_cons_self
    have ht' : (Waiter.step s o).tasks[i]? = some t := by
      by_cases ho : o.target = some i
      · cases o with
        | sendDone j b => cases ho; exact absurd rfl (h3 b)
        | sendRaise j e => cases ho; exact absurd rfl (h4 e)
        | timer j => cases ho; simp [Waiter.step, ht, hp]
        | resume j => cases ho; simp [Waiter.step, ht, hp]
        | cancelDone j => cases ho; simp [Waiter.step, ht, hp]
        | kill j => cases ho; exact absurd rfl h2
        | _ => cases ho
      · exact step_task_other s o i t ht ho
    refine ih hi' ?_ ht' fun x hx => hops x (List.mem_cons_of_mem _ hx)
    rcases ha.step hi h1 h2 h4 (h3 false) with h' | ⟨t', e, -, hn, -⟩
    · exact h'
    · rw [ht'] at e; cases e; exact absurd hp hn

/-- A message of the type reaches a call that can be answered and is not too late. -/
theorem Hopeful.message {s : State} {i D : Nat} {m : Msg} (h : Hopeful s i m.hid) (hp : Past s i D) : ∃ m', Resolved (Waiter.step s (.message m)) i m' := by
  obtain ⟨t, ht, hn, -⟩ := hp
  rcases h with h | ⟨t', ht', -, -, hp, -⟩ | ⟨m', h⟩
  · exact ⟨m, h.message ht fun e => absurd e hn⟩
  · rw [ht] at ht'; cases ht'; exact absurd hp hn
  · exact ⟨m', h.step (by simp) (by simp)⟩

end Model.Waiter

namespace Model.Conn

theorem done_stays (s : State) (o : Op) {i : Nat} {t : Send} {r : Py Bool} (ht : s.sends[i]? = some t) (hp : t.pc = .done r) :
    ∃ t', (step s o).sends[i]? = some t' ∧ t'.pc = .done r := by
  obtain ⟨t', ht', tr⟩ := step_send s o i t ht
  refine ⟨t', ht', ?_⟩
  cases tr with
  | same => exact hp
  | queued => exact hp
  | received => exact hp
  | timer a => rw [hp] at a; cases a
  | rearm _ a => rw [hp] at a; simp at a
  | success _ a => rw [hp] at a; simp at a
  | giveUp _ a => rw [hp] at a; cases a
  | failed a => rw [hp] at a; cases a
  | raised a => rw [hp] at a; cases a
  | killed a => exact absurd hp (a r)

theorem done_run (os : List Op) : ∀ (s : State) {i : Nat} {t : Send} {r : Py Bool}, s.sends[i]? = some t → t.pc = .done r →
    ∃ t', (run s os).sends[i]? = some t' ∧ t'.pc = .done r := by
  induction os with
  | nil => intro s i t r ht hp; exact ⟨t, ht, hp⟩
  | cons o os ih =>
    intro s i t r ht hp
    obtain ⟨t', h1, h2⟩ := done_stays s o ht hp
    exact ih _ h1 h2

end Model.Conn

namespace Model.ToNode

/-- The result of a send does not change. -/
theorem linkResult_run {s : State} {k n : Nat} {r : Py Bool} (h : linkResult s.gw k n = some r) (ops : List Op) : linkResult (run s ops).gw k n = some r := by
  unfold linkResult at h
  split at h
  · cases h
  · rename_i l hl
    split at h
    · cases h
    · rename_i t ht
      split at h
      · rename_i r' hp
        cases h
        have h1 := (link_run k ops s).1 l hl
        obtain ⟨t', h2, h3⟩ := Conn.done_run (proj k s ops) l.conn ht hp
        simp only [linkResult, h1, h2, h3]
      · cases h

/-- A call that has sent its command goes on sending until the send ends, and ends with its result. -/
theorem sending_step {s : State} {i k n : Nat} {c : Call} (hc : s.calls[i]? = some c) (hp : c.pc = .sending k n) (o : Op) :
    ∃ d, (step s o).calls[i]? = some d ∧ (d.pc = .sending k n ∨ ∃ r, d.pc = .done r ∧ linkResult s.gw k n = some r) := by
  have stay : ∀ s' : State, s'.calls[i]? = some c → ∃ d, s'.calls[i]? = some d ∧ (d.pc = .sending k n ∨ ∃ r, d.pc = .done r ∧ linkResult s.gw k n = some r) :=
    fun s' h => ⟨c, h, .inl hp⟩
  have hlt := (List.getElem?_eq_some_iff.mp hc).1
  cases o with
  | gw o => exact stay _ hc
  | resume j =>
    simp only [step]
    by_cases hj : j = i
    · subst hj
      simp only [proceed, hc, hp]
      cases hr : linkResult s.gw k n with
      | none => exact ⟨c, hc, .inl hp⟩
      | some r => exact ⟨_, List.getElem?_set_self hlt, .inr ⟨r, rfl, rfl⟩⟩
    · have : (proceed s j).calls[i]? = some c := by
        unfold proceed
        repeat' split
        all_goals first | exact hc | (simp only [List.getElem?_set_ne hj]; exact hc)
      exact stay _ this
  | send node cmd src dst timeout =>
    have : (step s (.send node cmd src dst timeout)).calls[i]? = some c := by
      simp only [step, sendToNode]
      have hne : s.calls.length ≠ i := by omega
      unfold proceed
      repeat' split
      all_goals first
        | (simp only [List.getElem?_append_left hlt]; exact hc)
        | (simp only [List.getElem?_set_ne hne, List.getElem?_append_left hlt]; exact hc)
    exact stay _ this

theorem done_call_step {s : State} {i : Nat} {c : Call} {r : Py Bool} (hc : s.calls[i]? = some c) (hp : c.pc = .done r) (o : Op) : (step s o).calls[i]? = some c := by
  have hlt := (List.getElem?_eq_some_iff.mp hc).1
  cases o with
  | gw o => exact hc
  | resume j =>
    simp only [step]
    by_cases hj : j = i
    · subst hj; simp only [proceed, hc, hp]
    · unfold proceed
      repeat' split
      all_goals first | exact hc | (simp only [List.getElem?_set_ne hj]; exact hc)
  | send node cmd src dst timeout =>
    simp only [step, sendToNode]
    have hne : s.calls.length ≠ i := by omega
    unfold proceed
    repeat' split
    all_goals first
      | (simp only [List.getElem?_append_left hlt]; exact hc)
      | (simp only [List.getElem?_set_ne hne, List.getElem?_append_left hlt]; exact hc)

/-- The call is sending, or has ended with the result of its send. -/
def Tied (s : State) (i k n : Nat) : Prop := ∃ c, s.calls[i]? = some c ∧ (c.pc = .sending k n ∨ ∃ r, c.pc = .done r ∧ linkResult s.gw k n = some r)

theorem Tied.step {s : State} {i k n : Nat} (h : Tied s i k n) (o : Op) : Tied (step s o) i k n := by
  obtain ⟨c, hc, hp | ⟨r, hp, hr⟩⟩ := h
  · obtain ⟨d, hd, h | ⟨r, h1, h2⟩⟩ := sending_step hc hp o
    · exact ⟨d, hd, .inl h⟩
    · exact ⟨d, hd, .inr ⟨r, h1, linkResult_run h2 [o]⟩⟩
  · exact ⟨c, done_call_step hc hp o, .inr ⟨r, hp, linkResult_run hr [o]⟩⟩

theorem Tied.run {i k n : Nat} (ops : List Op) : ∀ {s : State}, Tied s i k n → Tied (run s ops) i k n := by
  induction ops with
  | nil => intro s h; exact h
  | cons o ops ih => intro s h; exact ih (h.step o)

theorem mem_proj {k : Nat} {o : Conn.Op} (hsend : ∀ cmd src dst timeout, o ≠ .send cmd src dst timeout) (hcon : o ≠ .connect) (ops : List Op) :
    ∀ s : State, o ∈ proj k s ops → .gw (.link k o) ∈ ops := by
  induction ops with
  | nil => intro s h; cases h
  | cons p ops ih =>
    intro s h
    simp only [proj] at h
    rcases List.mem_append.mp h with h' | h'
    · have h := h'
      clear h'
      have hp : p = .gw (.link k o) := by
        split at h
        · cases p with
          | gw g =>
            simp only [linkOps] at h
            cases g with
            | link k' c =>
              simp only [Gateway.linkOps] at h
              split at h
              · rename_i e; subst e; rw [List.mem_singleton.mp ‹o ∈ [c]›]
              · cases h
            | opened j ok =>
              exfalso
              cases ok with
              | false => cases h
              | true =>
                simp only [Gateway.linkOps] at h
                split at h
                · split at h
                  · exact hcon (List.mem_singleton.mp h)
                  · cases h
                · cases h
            | _ => exact absurd h (by simp [Gateway.linkOps])
          | resume j =>
            exfalso
            simp only [linkOps] at h
            split at h
            · rename_i k' c hi
              split at h
              · obtain ⟨cmd, src, dst, timeout, e⟩ := issued_send hi
                exact hsend cmd src dst timeout ((List.mem_singleton.mp h).trans e)
              · cases h
            · cases h
          | send =>
            exfalso
            simp only [linkOps] at h
            split at h
            · rename_i k' c hi
              split at h
              · obtain ⟨cmd, src, dst, timeout, e⟩ := issued_send hi
                exact hsend cmd src dst timeout ((List.mem_singleton.mp h).trans e)
              · cases h
            · cases h
        · cases h
      rw [hp]; exact List.mem_cons_self
    · exact List.mem_cons_of_mem _ (ih _ h')

/-- A call to a node with a connection sends at once. -/
theorem tied_send (s : State) {n k : Nat} {l : Gateway.Link} (hk : s.gw.conns.get? n = some k) (hl : s.gw.links[k]? = some l) (cmd : Msg) (src dst : Int) (timeout : Nat) :
    Tied (step s (.send n cmd src dst timeout)) s.calls.length k l.conn.sends.length ∧
      linkOps k s (.send n cmd src dst timeout) = [.send cmd src dst timeout] := by
  have hg : Gateway.step s.gw (.connectToNode n) = s.gw.addJob (.done (.ok (.conn k))) := by
    simp only [Gateway.step, Gateway.connectToNode, hk]
  have hp : step s (.send n cmd src dst timeout) =
      ⟨Gateway.step (s.gw.addJob (.done (.ok (.conn k)))) (.link k (.send cmd src dst timeout)),
        (s.calls ++ [(⟨n, cmd, src, dst, timeout, .connecting s.gw.jobs.length⟩ : Call)]).set s.calls.length ⟨n, cmd, src, dst, timeout, .sending k l.conn.sends.length⟩⟩ := by
    simp only [step, sendToNode, hg, proceed, List.getElem?_concat_length, Gateway.State.addJob, sendCount, hl]
  constructor
  · rw [hp]
    exact ⟨_, List.getElem?_set_self (by simp), .inl rfl⟩
  · simp only [linkOps, hg, issued, List.getElem?_concat_length, Gateway.State.addJob, if_true]

/-- The send of the call has succeeded when its acknowledgement has arrived and it has gone on. -/
theorem acked (ops A B : List Op) {n k : Nat} {l l1 : Gateway.Link} (cmd : Msg) (src dst : Int) (timeout : Nat) (b : Spec.Bytes) (q : Nat) :
    let s0 := run init ops
    let N := l.conn.sends.length
    let s1 := run (step s0 (.send n cmd src dst timeout)) A
    s0.gw.conns.get? n = some k → s0.gw.links[k]? = some l → Props.NumberFree l.conn ((N + 1) % 256) → s1.gw.links[k]? = some l1 →
    Props.Outstanding l1.conn N q → Spec.AckFor b q → .gw (.link k (.kill N)) ∉ B →
    linkResult (step (run (step s1 (.gw (.link k (.packet b)))) B) (.gw (.link k (.resume N)))).gw k N = some (.ok true) := by
  intro s0 N s1 hk hl hfree hl1 hout hack hkill
  have hc : l.conn = Conn.run Conn.init (proj k init ops) := link_conn ops k l hl
  have hlo := (tied_send s0 hk hl cmd src dst timeout).2
  have h1 := (link_run k (.send n cmd src dst timeout :: A) s0).1 l hl
  have hl1' : l1.conn = Conn.run (Conn.step l.conn (.send cmd src dst timeout)) (proj k (step s0 (.send n cmd src dst timeout)) A) := by
    have e : run s0 (.send n cmd src dst timeout :: A) = s1 := rfl
    rw [e, hl1] at h1
    cases h1
    simp only [proj, hl, Option.isSome_some, if_true, hlo, List.singleton_append, Conn.run_cons]
  have hl2 := (link_run k (.gw (.link k (.packet b)) :: B) s1).1 l1 hl1
  have hl3 := (link_run k (.gw (.link k (.packet b)) :: (B ++ [.gw (.link k (.resume N))])) s1).1 l1 hl1
  have e3 : run s1 (.gw (.link k (.packet b)) :: (B ++ [.gw (.link k (.resume N))])) = step (run (step s1 (.gw (.link k (.packet b)))) B) (.gw (.link k (.resume N))) := by
    have e : ∀ (s : State) (o p : Op) (l : List Op), run s (o :: (l ++ [p])) = step (run (step s o) l) p := by
      intro s o p l; simp only [run, List.foldl_cons, List.foldl_append, List.foldl_nil]
    exact e _ _ _ _
  have hsome : ((run (step s1 (.gw (.link k (.packet b)))) B).gw.links[k]?).isSome = true := by
    have : run s1 (.gw (.link k (.packet b)) :: B) = run (step s1 (.gw (.link k (.packet b)))) B := rfl
    rw [← this, hl2]; rfl
  have ep : proj k s1 (.gw (.link k (.packet b)) :: (B ++ [.gw (.link k (.resume N))])) =
      .packet b :: (proj k (step s1 (.gw (.link k (.packet b)))) B ++ [.resume N]) := by
    simp only [proj, hl1, Option.isSome_some, if_true, proj_append, hsome, linkOps, Gateway.linkOps, List.append_nil, List.singleton_append]
  rw [e3, ep] at hl3
  have h30 := Props.C30_ack_completes_partial (proj k init ops) (proj k (step s0 (.send n cmd src dst timeout)) A) (proj k (step s1 (.gw (.link k (.packet b)))) B)
    cmd src dst timeout b q
  dsimp only at h30
  rw [← hc] at h30
  rw [← hl1'] at h30
  obtain ⟨t, ht, hp⟩ := (h30 hfree hout hack fun hm => hkill (mem_proj (by simp) (by simp) B _ hm)).2
  simp only [linkResult, hl3]
  have e4 : Conn.run l1.conn (.packet b :: (proj k (step s1 (.gw (.link k (.packet b)))) B ++ [.resume N])) =
      Conn.step (Conn.run (Conn.step l1.conn (.packet b)) (proj k (step s1 (.gw (.link k (.packet b)))) B)) (.resume N) := by
    rw [Conn.run_cons, Conn.run_append]; rfl
  rw [e4, ht]
  simp only [hp]

/-- Then the call returns True. -/
theorem returns_true {s : State} {i k n : Nat} (h : Tied s i k n) (hr : linkResult s.gw k n = some (.ok true)) :
    ∃ c, (step s (.resume i)).calls[i]? = some c ∧ c.pc = .done (.ok true) := by
  obtain ⟨c, hc, hp | ⟨r, hp, h'⟩⟩ := h
  · refine ⟨{ c with pc := .done (.ok true) }, ?_, rfl⟩
    simp only [step, proceed, hc, hp, hr]
    exact List.getElem?_set_self (List.getElem?_eq_some_iff.mp hc).1
  · rw [hr] at h'
    cases h'
    exact ⟨c, done_call_step hc hp _, hp⟩

theorem done_call_run {i : Nat} {c : Call} {r : Py Bool} (hp : c.pc = .done r) (ops : List Op) : ∀ {s : State}, s.calls[i]? = some c → (run s ops).calls[i]? = some c := by
  induction ops with
  | nil => intro s h; exact h
  | cons o ops ih => intro s h; exact ih (done_call_step h hp o)

end Model.ToNode

namespace Model.System
open Model.App (Nd)

/-- Only the continuation of the call releases it. -/
theorem released_op {obj : Nat} {s : State} {o : Op} {i : Nat} {w : Waiter.Op} (h : w ∈ waitOps obj s o) (hw : (∃ b, w = .sendDone i b) ∨ ∃ e, w = .sendRaise i e) :
    ∃ a q, o = .sent a ∧ s.asks[a]? = some q ∧ q.nd.obj = obj ∧ q.task = i := by
  rcases hw with ⟨b, rfl⟩ | ⟨e, rfl⟩
  · obtain ⟨a, q, c, h1, h2, h3, h4, -⟩ := sendDone_op h
    exact ⟨a, q, h1, h2, h3, h4⟩
  · cases o with
    | ask nd cmd hid timeout => simp only [waitOps] at h; split at h <;> simp at h
    | net o => cases h
    | app o => cases h
    | sent a =>
      simp only [waitOps] at h
      split at h
      · cases h
      · rename_i q hq
        split at h
        · cases h
        · split at h
          · rename_i r hr
            split at h
            · rename_i e
              cases r with
              | ok x => simp [sendEnded] at h
              | error b' =>
                simp only [sendEnded, List.mem_singleton, Waiter.Op.sendRaise.injEq] at h
                obtain ⟨rfl, rfl⟩ := h
                exact ⟨a, q, rfl, hq, e, rfl⟩
            · cases h
          · cases h
    | deliver j =>
      simp only [waitOps] at h
      split at h
      · split at h <;> simp at h
      · cases h
    | waiter x o =>
      simp only [waitOps] at h
      split at h
      · rename_i e
        simp only [List.mem_singleton] at h
        subst h
        simp [own] at e
      · cases h

/-- Who waits for a type on the object. -/
theorem asks_op {obj hid : Nat} {s : State} {o : Op} {w : Waiter.Op} (h : w ∈ waitOps obj s o) (hw : w.asks hid) :
    (∃ nd cmd timeout, o = .ask nd cmd hid timeout ∧ nd.obj = obj) ∨ ∃ timeout, o = .waiter obj (.call .plain hid timeout) := by
  cases w with
  | call k h' to =>
    have : h' = hid := hw
    subst this
    cases o with
    | ask nd cmd hid timeout =>
      simp only [waitOps] at h
      split at h
      · rename_i e
        cases List.mem_singleton.mp h
        exact .inl ⟨nd, cmd, to, rfl, e⟩
      · cases h
    | net o => cases h
    | app o => cases h
    | sent a =>
      simp only [waitOps] at h
      split at h
      · cases h
      · split at h
        · cases h
        · split at h
          · rename_i r hr
            split at h
            · cases r <;> simp [sendEnded] at h
            · cases h
          · cases h
    | deliver j =>
      simp only [waitOps] at h
      split at h
      · split at h <;> simp at h
      · cases h
    | waiter x o =>
      simp only [waitOps] at h
      split at h
      · rename_i e
        have hm := List.mem_singleton.mp h
        subst hm
        obtain ⟨rfl, e⟩ := e
        cases k with
        | plain => exact .inr ⟨to, rfl⟩
        | _ => simp [own] at e
      · cases h
  | _ => exact hw.elim

theorem kill_op {obj i : Nat} {s : State} {o : Op} (h : .kill i ∈ waitOps obj s o) : o = .waiter obj (.kill i) := by
  cases o with
  | ask nd cmd hid timeout => simp only [waitOps] at h; split at h <;> simp at h
  | net o => cases h
  | app o => cases h
  | sent a =>
    simp only [waitOps] at h
    split at h
    · cases h
    · split at h
      · cases h
      · split at h
        · rename_i r hr
          split at h
          · cases r <;> simp [sendEnded] at h
          · cases h
        · cases h
  | deliver j =>
    simp only [waitOps] at h
    split at h
    · split at h <;> simp at h
    · cases h
  | waiter x o =>
    simp only [waitOps] at h
    split at h
    · rename_i e
      have hm := List.mem_singleton.mp h
      subst hm
      rw [e.1]
    · cases h

/-- What has been told stays told, and only what has been told is delivered. -/
theorem told_run (own : Nat) (ops l : List Op) : ∃ new, (run (init own) (ops ++ l)).net.gw.told = (run (init own) ops).net.gw.told ++ new := by
  obtain ⟨new, h⟩ := ToNode.told_append (ops.flatMap netOps) (l.flatMap netOps)
  refine ⟨new, ?_⟩
  rw [run_net, run_net, List.flatMap_append]
  exact h

theorem delivered_lt (own : Nat) (ops : List Op) : ∀ i ∈ (run (init own) ops).delivered, i < (run (init own) ops).net.gw.told.length := by
  induction ops using Conn.snoc_ind with
  | nil => intro i h; cases h
  | snoc ops o ih =>
    intro i hi
    obtain ⟨new, hn⟩ := told_run own ops [o]
    rw [hn]
    rw [run_snoc] at hi
    have old : i ∈ (run (init own) ops).delivered → i < ((run (init own) ops).net.gw.told ++ new).length := fun h => by
      have := ih i h
      rw [List.length_append]; omega
    generalize run (init own) ops = s at *
    cases o with
    | ask nd cmd hid timeout => exact old hi
    | net o => exact old hi
    | app o => exact old hi
    | sent a => refine old ?_; simp only [step] at hi; split at hi <;> (try split at hi) <;> (try split at hi) <;> exact hi
    | waiter obj o => refine old ?_; simp only [step] at hi; split at hi <;> exact hi
    | deliver j =>
      simp only [step] at hi
      split at hi
      · exact old hi
      · split at hi
        · exact old hi
        · rename_i t ht
          have hd : i ∈ s.delivered ++ [j] := by split at hi <;> (try split at hi) <;> exact hi
          rcases List.mem_append.mp hd with h | h
          · exact old h
          · rw [List.mem_singleton.mp h, List.length_append]
            have := (List.getElem?_eq_some_iff.mp ht).1
            omega

theorem not_delivered {s : State} {i : Nat} (h : i ∉ s.delivered) (o : Op) (ho : o ≠ .deliver i) : i ∉ (step s o).delivered := by
  cases o with
  | ask nd cmd hid timeout => exact h
  | net o => exact h
  | app o => exact h
  | sent a => intro hi; refine h ?_; simp only [step] at hi; split at hi <;> (try split at hi) <;> (try split at hi) <;> exact hi
  | waiter obj o => intro hi; refine h ?_; simp only [step] at hi; split at hi <;> exact hi
  | deliver j =>
    intro hi
    simp only [step] at hi
    split at hi
    · exact h hi
    · split at hi
      · exact h hi
      · have hd : i ∈ s.delivered ++ [j] := by split at hi <;> (try split at hi) <;> exact hi
        rcases List.mem_append.mp hd with h' | h'
        · exact h h'
        · exact ho (by rw [List.mem_singleton.mp h'])

theorem not_delivered_run {i : Nat} (ops : List Op) : ∀ {s : State}, i ∉ s.delivered → .deliver i ∉ ops → i ∉ (run s ops).delivered := by
  induction ops with
  | nil => intro s h _; exact h
  | cons o ops ih =>
    intro s h ho
    simp only [List.mem_cons, not_or] at ho
    exact ih (not_delivered h o fun e => ho.1 e.symm) ho.2

end Model.System

import Verif.Lemmas.Waiter
/-! Helper lemmas: a call returns a message that arrived after the call. -/
namespace Model.Waiter

theorem add_futs_back (s : State) (h f : Nat) (m : Msg) (hf : (addWaitingSession s h).1.futs[f]? = some (.result m)) : s.futs[f]? = some (.result m) := by
  unfold addWaitingSession at hf
  split at hf
  · exact hf
  · rcases Nat.lt_trichotomy f s.futs.length with h1 | h1 | h1
    · simpa [List.getElem?_append_left h1] using hf
    · subst h1; simp at hf
    · rw [List.getElem?_eq_none (by simp; omega)] at hf; cases hf

/-- Results come from messages. -/
theorem futs_back (s : State) (op : Op) (f : Nat) (m : Msg) (hf : (step s op).futs[f]? = some (.result m)) :
    s.futs[f]? = some (.result m) ∨ op = .message m := by
  have hcan : ∀ g, (s.futs.set g .cancelled)[f]? = some (.result m) → s.futs[f]? = some (.result m) := by
    intro g h
    rcases getElem?_set_cases h with ⟨-, h⟩ | ⟨-, h⟩
    · cases h
    · exact h
  cases op with
  | call k h to => left; simp only [step] at hf; exact add_futs_back s h f m hf
  | message m' =>
    simp only [step, messageReceived] at hf
    split at hf
    · exact .inl hf
    · split at hf
      · rcases getElem?_set_cases hf with ⟨-, h⟩ | ⟨-, h⟩
        · cases h; exact .inr rfl
        · exact .inl h
      · exact .inl hf
  | tick => exact .inl hf
  | sendDone j ok =>
    left
    simp only [step] at hf
    split at hf
    · exact hf
    · split at hf
      · exact hf
      · split at hf
        · split at hf
          · exact add_futs_back s _ f m hf
          · exact hf
        · exact hf
        · exact hf
  | sendRaise j e =>
    left
    simp only [step] at hf
    split at hf
    · exact hf
    · split at hf <;> exact hf
  | timer j =>
    left
    simp only [step] at hf
    split at hf
    · exact hf
    · split at hf <;> exact hf
  | resume j =>
    left
    simp only [step, finish] at hf
    split at hf
    · exact hf
    · split at hf
      · split at hf
        · exact hf
        · split at hf
          · exact hf
          · exact hf
          · split at hf
            · exact hcan _ hf
            · exact hf
      · exact hf
  | cancelDone j =>
    left
    simp only [step, finish] at hf
    split at hf
    · exact hf
    · split at hf <;> exact hf
  | kill j =>
    left
    simp only [step, finish] at hf
    split at hf
    · exact hf
    · split at hf
      · exact hf
      · exact hf
      · split at hf
        · exact hf
        · split at hf
          · exact hcan _ hf
          · exact hf

/-- Whatever the call `i`, waiting for a message `h`, has returned or will find in its future satisfies `P`. -/
def Prov (P : Msg → Prop) (h i : Nat) (s : State) : Prop :=
  ∃ t, s.tasks[i]? = some t ∧ t.hid = h ∧ (∀ f m, t.fut = some f → s.futs[f]? = some (.result m) → P m) ∧ ∀ m, t.pc = .done (.ok m) → P m

theorem session_no_result {tag : Nat → Nat} {s : State} (hi : Inv tag s) (h f : Nat) (hs : s.sessions.get? h = some f) (m : Msg) : s.futs[f]? ≠ some (.result m) := by
  intro e
  rcases (hi.sess h f hs).2 with h1 | ⟨h1, -⟩ <;> rw [h1] at e <;> cases e

theorem add_no_result {tag : Nat → Nat} {s : State} (hi : Inv tag s) (h : Nat) (m : Msg) :
    (addWaitingSession s h).1.futs[(addWaitingSession s h).2]? ≠ some (.result m) := by
  intro e
  unfold addWaitingSession at e
  split at e
  · rename_i f hs; exact session_no_result hi h f hs m e
  · simp at e

theorem Prov.step {P : Msg → Prop} {h' i : Nat} {s : State} {tag : Nat → Nat} (hi : Inv tag s) (h : Prov P h' i s) (op : Op) (hop : ∀ m, op = .message m → P m) :
    Prov P h' i (step s op) := by
  obtain ⟨t, ht, hh, h1, h2⟩ := h
  -- the futures of the call, if its future stays the same
  have hfut : ∀ (g : Nat) (m : Msg), t.fut = some g → (Waiter.step s op).futs[g]? = some (.result m) → P m := by
    intro g m hg hm
    rcases futs_back s op g m hm with h | h
    · exact h1 g m hg h
    · exact hop m h
  by_cases ho : op.target = some i
  · have same : (Waiter.step s op).tasks[i]? = some t → Prov P h' i (Waiter.step s op) := fun h => ⟨t, h, hh, hfut, h2⟩
    have key : ∀ t' : Task, (Waiter.step s op).tasks = s.tasks.set i t' → t'.fut = t.fut ∧ t'.hid = t.hid → (∀ m, t'.pc = .done (.ok m) → P m) → Prov P h' i (Waiter.step s op) := by
      intro t' e hf hd
      exact ⟨t', by rw [e, getElem?_set_some ht], hf.2.trans hh, fun f m hf' hm => hfut f m (by rw [← hf.1]; exact hf') hm, hd⟩
    cases op with
    | sendDone k ok =>
      cases ho
      by_cases hpc : t.pc ≠ .sending
      · exact same (by simp only [Waiter.step, ht, if_pos hpc])
      · cases hk : t.kind with
        | node =>
          cases ok with
          | false => exact key { t with pc := .done (.error .timeout) } (by simp only [Waiter.step, ht, if_neg hpc, hk]; rfl) ⟨rfl, rfl⟩ (by simp)
          | true =>
            have e : Waiter.step s (.sendDone i true) = { (addWaitingSession s t.hid).1 with
                tasks := s.tasks.set i { t with fut := some (addWaitingSession s t.hid).2, deadline := s.now + t.timeout, pc := .waiting } } := by
              simp only [Waiter.step, ht, if_neg hpc, hk, if_true, add_tasks, add_now]
            refine ⟨{ t with fut := some (addWaitingSession s t.hid).2, deadline := s.now + t.timeout, pc := .waiting }, ?_, hh, ?_, by simp⟩
            · rw [e]; exact getElem?_set_some ht
            · intro f m hf hm
              simp only [Option.some.injEq] at hf
              subst hf
              rw [e] at hm
              exact absurd hm (add_no_result hi t.hid m)
        | plain =>
          cases hf : t.fut with
          | none => exact same (by simp only [Waiter.step, ht, if_neg hpc, hk, hf])
          | some f => exact key { t with deadline := s.now + t.timeout, pc := .waiting } (by simp only [Waiter.step, ht, if_neg hpc, hk, hf]) ⟨rfl, rfl⟩ (by simp)
        | adapter =>
          cases hf : t.fut with
          | none => exact same (by simp only [Waiter.step, ht, if_neg hpc, hk, hf])
          | some f => exact key { t with deadline := s.now + t.timeout, pc := .waiting } (by simp only [Waiter.step, ht, if_neg hpc, hk, hf]) ⟨rfl, rfl⟩ (by simp)
    | sendRaise k e =>
      cases ho
      by_cases hpc : t.pc ≠ .sending
      · exact same (by simp only [Waiter.step, ht, if_pos hpc])
      · exact key { t with pc := .done (.error e) } (by simp only [Waiter.step, ht, if_neg hpc]) ⟨rfl, rfl⟩ (by simp)
    | timer k =>
      cases ho
      by_cases hpc : t.pc = .waiting ∧ t.deadline ≤ s.now
      · exact key { t with pc := .timedOut } (by simp only [Waiter.step, ht, if_pos hpc]) ⟨rfl, rfl⟩ (by simp)
      · exact same (by simp only [Waiter.step, ht, if_neg hpc])
    | resume k =>
      cases ho
      by_cases hpc : t.pc = .waiting ∨ t.pc = .timedOut
      · cases hf : t.fut with
        | none => exact same (by simp only [Waiter.step, ht, if_pos hpc, hf])
        | some f =>
          cases hff : s.futs[f]? with
          | none =>
            by_cases hto : t.pc = .timedOut
            · exact key { t with pc := .cancelling } (by simp only [Waiter.step, ht, if_pos hpc, hf, hff, if_pos hto]) ⟨rfl, rfl⟩ (by simp)
            · exact same (by simp only [Waiter.step, ht, if_pos hpc, hf, hff, if_neg hto])
          | some x =>
            cases x with
            | pending =>
              by_cases hto : t.pc = .timedOut
              · exact key { t with pc := .cancelling } (by simp only [Waiter.step, ht, if_pos hpc, hf, hff, if_pos hto]) ⟨rfl, rfl⟩ (by simp)
              · exact same (by simp only [Waiter.step, ht, if_pos hpc, hf, hff, if_neg hto])
            | cancelled =>
              exact key { t with pc := .done (.error .cancelled) } (by simp only [Waiter.step, ht, if_pos hpc, hf, hff, finish]) ⟨rfl, rfl⟩ (by simp)
            | result m =>
              refine key { t with pc := .done (.ok m) } (by simp only [Waiter.step, ht, if_pos hpc, hf, hff, finish]) ⟨rfl, rfl⟩ ?_
              intro m' hm'
              simp only [Pc.done.injEq, Except.ok.injEq] at hm'
              subst hm'
              exact h1 f m hf hff
      · exact same (by simp only [Waiter.step, ht, if_neg hpc])
    | cancelDone k =>
      cases ho
      by_cases hpc : t.pc = .cancelling
      · exact key { t with pc := .done (.error .timeout) } (by simp only [Waiter.step, ht, if_pos hpc, finish]) ⟨rfl, rfl⟩ (by simp)
      · exact same (by simp only [Waiter.step, ht, if_neg hpc])
    | kill k =>
      cases ho
      have hk : (Waiter.step s (.kill i)).tasks = s.tasks ∨ (Waiter.step s (.kill i)).tasks = s.tasks.set i { t with pc := .done (.error .cancelled) } := by
        simp only [Waiter.step, ht, finish]
        split
        · exact .inl rfl
        · exact .inr rfl
        · split
          · exact .inl rfl
          · split <;> exact .inr rfl
      rcases hk with e | e
      · exact same (by rw [e]; exact ht)
      · exact key _ e ⟨rfl, rfl⟩ (by simp)
    | call k h to => cases ho
    | message m' => cases ho
    | tick => cases ho
  · exact ⟨t, step_task_other s op i t ht ho, hh, hfut, h2⟩

theorem Prov.call {P : Msg → Prop} {s : State} {tag : Nat → Nat} (hi : Inv tag s) (k : Kind) (h to : Nat) : Prov P h s.tasks.length (Waiter.step s (.call k h to)) := by
  refine ⟨_, call_task s k h to, by cases k <;> rfl, ?_, ?_⟩
  · intro f m hf hm
    have hm : (addWaitingSession s h).1.futs[f]? = some (.result m) := hm
    cases k <;> simp at hf
    · subst hf; exact absurd hm (add_no_result hi h m)
    · subst hf; exact absurd hm (add_no_result hi h m)
  · intro m hm
    cases k <;> simp at hm

theorem Prov.run {P : Msg → Prop} {h' i : Nat} (ops : List Op) : ∀ {s : State} {tag : Nat → Nat}, Inv tag s → Prov P h' i s → (∀ m, .message m ∈ ops → P m) →
    Prov P h' i (run s ops) := by
  induction ops with
  | nil => intro s tag _ h _; exact h
  | cons op ops ih =>
    intro s tag hi h hm
    obtain ⟨tag', hi'⟩ := hi.step op
    exact ih hi' (h.step hi op (fun m e => hm m (by rw [e]; exact .head _))) (fun m hmm => hm m (.tail _ hmm))

end Model.Waiter

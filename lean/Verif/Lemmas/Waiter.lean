import Verif.Model.Waiter
import Verif.Lemmas.Dict
/-! Helper lemmas about waiting for messages. -/
namespace Model.Waiter

/-- The call an operation acts on. -/
def Op.target : Op → Option Nat
  | .sendDone t _ => some t
  | .sendRaise t _ => some t
  | .timer t => some t
  | .resume t => some t
  | .cancelDone t => some t
  | .kill t => some t
  | _ => none

theorem add_tasks (s : State) (h : Nat) : (addWaitingSession s h).1.tasks = s.tasks := by
  simp only [addWaitingSession]; split <;> rfl

theorem add_now (s : State) (h : Nat) : (addWaitingSession s h).1.now = s.now := by
  simp only [addWaitingSession]; split <;> rfl

theorem add_get (s : State) (h : Nat) : (addWaitingSession s h).1.sessions.get? h = some (addWaitingSession s h).2 := by
  simp only [addWaitingSession]
  split
  · assumption
  · simp

theorem add_get_ne (s : State) (h h' : Nat) (hn : h ≠ h') : (addWaitingSession s h).1.sessions.get? h' = s.sessions.get? h' := by
  simp only [addWaitingSession]
  split
  · rfl
  · simp [Dict.get?_set_ne _ _ hn]

theorem add_futs (s : State) (h f : Nat) (x : Fut) (hx : s.futs[f]? = some x) : (addWaitingSession s h).1.futs[f]? = some x := by
  simp only [addWaitingSession]
  split
  · exact hx
  · have : f < s.futs.length := by
      rcases Nat.lt_or_ge f s.futs.length with h | h
      · exact h
      · rw [List.getElem?_eq_none h] at hx; cases hx
    simp [List.getElem?_append_left this, hx]

theorem msg_tasks (s : State) (m : Msg) : (messageReceived s m).1.tasks = s.tasks := by
  simp only [messageReceived]; split
  · rfl
  · split <;> rfl

theorem msg_now (s : State) (m : Msg) : (messageReceived s m).1.now = s.now := by
  simp only [messageReceived]; split
  · rfl
  · split <;> rfl

/-- Operations on other calls leave a call alone. -/
theorem step_task_other (s : State) (op : Op) (i : Nat) (t : Task) (ht : s.tasks[i]? = some t) (hn : op.target ≠ some i) :
    (step s op).tasks[i]? = some t := by
  have hlt : i < s.tasks.length := by
    rcases Nat.lt_or_ge i s.tasks.length with h | h
    · exact h
    · rw [List.getElem?_eq_none h] at ht; cases ht
  have hset : ∀ j x, j ≠ i → (s.tasks.set j x)[i]? = some t := by
    intro j x hj; rw [List.getElem?_set_ne hj]; exact ht
  cases op with
  | call k h to =>
    simp only [step]
    rw [List.getElem?_append_left (by rw [add_tasks]; exact hlt), add_tasks]
    exact ht
  | message m => simp only [step, msg_tasks]; exact ht
  | tick => exact ht
  | sendDone j ok =>
    have hj : j ≠ i := fun e => hn (by rw [e]; rfl)
    simp only [step]
    split
    · exact ht
    · split
      · exact ht
      · split
        · split
          · simp only [add_tasks]; exact hset _ _ hj
          · exact hset _ _ hj
        · exact hset _ _ hj
        · exact ht
  | sendRaise j e =>
    have hj : j ≠ i := fun e => hn (by rw [e]; rfl)
    simp only [step]
    split
    · exact ht
    · split
      · exact ht
      · exact hset _ _ hj
  | timer j =>
    have hj : j ≠ i := fun e => hn (by rw [e]; rfl)
    simp only [step]
    split
    · exact ht
    · split
      · exact hset _ _ hj
      · exact ht
  | resume j =>
    have hj : j ≠ i := fun e => hn (by rw [e]; rfl)
    simp only [step, finish]
    split
    · exact ht
    · split
      · split
        · exact ht
        · split
          · exact hset _ _ hj
          · exact hset _ _ hj
          · split
            · exact hset _ _ hj
            · exact ht
      · exact ht
  | cancelDone j =>
    have hj : j ≠ i := fun e => hn (by rw [e]; rfl)
    simp only [step, finish]
    split
    · exact ht
    · split
      · exact hset _ _ hj
      · exact ht
  | kill j =>
    have hj : j ≠ i := fun e => hn (by rw [e]; rfl)
    simp only [step, finish]
    split
    · exact ht
    · split
      · exact ht
      · exact hset _ _ hj
      · split
        · exact ht
        · split <;> exact hset _ _ hj

/-- A result is never changed. -/
theorem step_result (s : State) (op : Op) (f : Nat) (m : Msg) (hf : s.futs[f]? = some (.result m)) : (step s op).futs[f]? = some (.result m) := by
  have hset : ∀ g x, (∀ m, s.futs[g]? ≠ some (.result m)) → (s.futs.set g x)[f]? = some (.result m) := by
    intro g x hg
    by_cases e : g = f
    · subst e; exact absurd hf (hg m)
    · rw [List.getElem?_set_ne e]; exact hf
  cases op with
  | call k h to => simp only [step]; exact add_futs s h f _ hf
  | message m' =>
    simp only [step, messageReceived]
    split
    · exact hf
    · split
      · rename_i hp; exact hset _ _ (by intro m'' e; rw [hp] at e; cases e)
      · exact hf
  | tick => exact hf
  | sendDone j ok =>
    simp only [step]
    split
    · exact hf
    · split
      · exact hf
      · split
        · split
          · exact add_futs s _ f _ hf
          · exact hf
        · exact hf
        · exact hf
  | sendRaise j e => simp only [step]; split; · exact hf
                     · split <;> exact hf
  | timer j => simp only [step]; split; · exact hf
               · split <;> exact hf
  | resume j =>
    simp only [step, finish]
    split
    · exact hf
    · split
      · split
        · exact hf
        · split
          · exact hf
          · exact hf
          · rename_i h1 h2
            split
            · exact hset _ _ (by intro m'' e; exact h1 m'' e)
            · exact hf
      · exact hf
  | cancelDone j => simp only [step, finish]; split; · exact hf
                    · split <;> exact hf
  | kill j =>
    simp only [step, finish]
    split
    · exact hf
    · split
      · exact hf
      · exact hf
      · split
        · exact hf
        · split
          · rename_i hp; exact hset _ _ (by intro m'' e; rw [hp] at e; cases e)
          · exact hf

theorem run_cons (s : State) (op : Op) (ops : List Op) : run s (op :: ops) = run (step s op) ops := rfl

theorem run_append (s : State) (a b : List Op) : run s (a ++ b) = run (run s a) b := List.foldl_append

theorem run_result (ops : List Op) : ∀ (s : State) (f : Nat) (m : Msg), s.futs[f]? = some (.result m) → (run s ops).futs[f]? = some (.result m) := by
  induction ops with
  | nil => intro s f m h; exact h
  | cons op ops ih => intro s f m h; exact ih _ f m (step_result s op f m h)

/-! ## Invariant -/

/-- `tag f` is the message type the future `f` was created for. -/
structure Inv (tag : Nat → Nat) (s : State) : Prop where
  sess : ∀ (h f : Nat), s.sessions.get? h = some f → tag f = h ∧ (s.futs[f]? = some .pending ∨
    s.futs[f]? = some .cancelled ∧ ∃ (i : Nat) (t : Task), s.tasks[i]? = some t ∧ t.hid = h ∧ t.pc = .cancelling)
  res : ∀ (f : Nat) (m : Msg), s.futs[f]? = some (.result m) → m.hid = tag f
  fut : ∀ (i : Nat) (t : Task) (f : Nat), s.tasks[i]? = some t → t.fut = some f → tag f = t.hid ∧ f < s.futs.length
  done : ∀ (i : Nat) (t : Task) (m : Msg), s.tasks[i]? = some t → t.pc = .done (.ok m) → m.hid = t.hid
  kind : ∀ (i : Nat) (t : Task), s.tasks[i]? = some t → t.fut = none → t.kind = .node ∧ (t.pc = .sending ∨ ∃ r, t.pc = .done r)

theorem inv_init : Inv (fun _ => 0) init := by
  constructor <;> intros <;> simp_all [init]

theorem lt_of_getElem? {α} {l : List α} {i : Nat} {x : α} (h : l[i]? = some x) : i < l.length := by
  rcases Nat.lt_or_ge i l.length with h' | h'
  · exact h'
  · rw [List.getElem?_eq_none h'] at h; cases h

theorem getElem?_set_cases {α} {l : List α} {i j : Nat} {x y : α} (h : (l.set i x)[j]? = some y) :
    (i = j ∧ y = x) ∨ (i ≠ j ∧ l[j]? = some y) := by
  by_cases e : i = j
  · subst e
    rw [List.getElem?_set_self'] at h
    cases hl : l[i]? with
    | none => simp [hl] at h
    | some z => simp [hl] at h; exact Or.inl ⟨rfl, h.symm⟩
  · rw [List.getElem?_set_ne e] at h; exact Or.inr ⟨e, h⟩

theorem getElem?_set_some {α} {l : List α} {i : Nat} {x y : α} (h : l[i]? = some x) : (l.set i y)[i]? = some y := by
  rw [List.getElem?_set_self (lt_of_getElem? h)]

/-- Changing the position of a call. -/
theorem Inv.setTask {tag : Nat → Nat} {s : State} (h : Inv tag s) {i : Nat} {t t' : Task} (ht : s.tasks[i]? = some t) (h1 : t'.hid = t.hid)
    (h2 : ∀ f, t'.fut = some f → tag f = t'.hid ∧ f < s.futs.length) (h3 : ∀ m, t'.pc = .done (.ok m) → m.hid = t'.hid)
    (h4 : t.pc = .cancelling → t'.pc = .cancelling) (h5 : t'.fut = none → t'.kind = .node ∧ (t'.pc = .sending ∨ ∃ r, t'.pc = .done r)) :
    Inv tag { s with tasks := s.tasks.set i t' } where
  sess k f hk := by
    obtain ⟨a, b⟩ := h.sess k f hk
    refine ⟨a, b.imp id ?_⟩
    rintro ⟨c, j, u, hu, e1, e2⟩
    refine ⟨c, ?_⟩
    by_cases e : i = j
    · subst e
      rw [ht] at hu; cases hu
      exact ⟨i, t', getElem?_set_some ht, h1.trans e1, h4 e2⟩
    · exact ⟨j, u, by simp only; rw [List.getElem?_set_ne e]; exact hu, e1, e2⟩
  res := h.res
  fut j u f hu hf := by
    rcases getElem?_set_cases hu with ⟨e, rfl⟩ | ⟨e, hu⟩
    · exact h2 f hf
    · exact h.fut j u f hu hf
  done j u m hu hm := by
    rcases getElem?_set_cases hu with ⟨e, rfl⟩ | ⟨e, hu⟩
    · exact h3 m hm
    · exact h.done j u m hu hm
  kind j u hu hf := by
    rcases getElem?_set_cases hu with ⟨e, rfl⟩ | ⟨e, hu⟩
    · exact h5 hf
    · exact h.kind j u hu hf

/-- The end of a call. -/
theorem Inv.finish {tag : Nat → Nat} {s : State} (h : Inv tag s) {i : Nat} {t : Task} (ht : s.tasks[i]? = some t) {r : Res}
    (hr : ∀ m, r = .ok m → m.hid = t.hid) : Inv tag (Waiter.finish s i t r) where
  sess k f hk := by
    obtain ⟨hn, hk⟩ := Dict.get?_erase_some hk
    obtain ⟨a, b⟩ := h.sess k f hk
    refine ⟨a, b.imp id ?_⟩
    rintro ⟨c, j, u, hu, e1, e2⟩
    refine ⟨c, j, u, ?_, e1, e2⟩
    have e : i ≠ j := by
      rintro rfl
      rw [ht] at hu; cases hu; exact hn e1
    simp only [Waiter.finish]
    rw [List.getElem?_set_ne e]; exact hu
  res := h.res
  fut j u f hu hf := by
    rcases getElem?_set_cases hu with ⟨e, rfl⟩ | ⟨e, hu⟩
    · exact h.fut i t f ht hf
    · exact h.fut j u f hu hf
  done j u m hu hm := by
    rcases getElem?_set_cases hu with ⟨e, rfl⟩ | ⟨e, hu⟩
    · injection hm with hm; exact hr m hm
    · exact h.done j u m hu hm
  kind j u hu hf := by
    rcases getElem?_set_cases hu with ⟨e, rfl⟩ | ⟨e, hu⟩
    · exact ⟨(h.kind i t ht hf).1, Or.inr ⟨r, rfl⟩⟩
    · exact h.kind j u hu hf

/-- A new session. -/
theorem Inv.add {tag : Nat → Nat} {s : State} (h : Inv tag s) (k : Nat) :
    ∃ tag', Inv tag' (addWaitingSession s k).1 ∧ tag' (addWaitingSession s k).2 = k ∧ (addWaitingSession s k).2 < (addWaitingSession s k).1.futs.length := by
  cases hk : s.sessions.get? k with
  | some f =>
    simp only [addWaitingSession, hk]
    obtain ⟨a, b⟩ := h.sess k f hk
    refine ⟨tag, h, a, ?_⟩
    rcases b with b | ⟨b, -⟩ <;> exact lt_of_getElem? b
  | none =>
    simp only [addWaitingSession, hk]
    refine ⟨fun f => if f = s.futs.length then k else tag f, ?_, by simp, by simp⟩
    have hlt : ∀ (f : Nat) (x : Fut), s.futs[f]? = some x → f ≠ s.futs.length := by
      intro f x hx e; have := lt_of_getElem? hx; omega
    have hap : ∀ (f : Nat) (x : Fut), s.futs[f]? = some x → (s.futs ++ [Fut.pending])[f]? = some x := by
      intro f x hx; rw [List.getElem?_append_left (lt_of_getElem? hx)]; exact hx
    constructor
    · intro k' f hk'
      simp only [Dict.get?_set] at hk'
      split at hk'
      · rename_i e; subst e; cases hk'
        simp
      · obtain ⟨a, b⟩ := h.sess k' f hk'
        have hne : f ≠ s.futs.length := by
          rcases b with b | ⟨b, -⟩ <;> exact hlt _ _ b
        simp only [if_neg hne]
        refine ⟨a, ?_⟩
        rcases b with b | ⟨b, c⟩
        · exact Or.inl (hap _ _ b)
        · exact Or.inr ⟨hap _ _ b, c⟩
    · intro f m hm
      simp only at hm
      rw [List.getElem?_append] at hm
      split at hm
      · rename_i hlt'
        have : f ≠ s.futs.length := by omega
        simp only [if_neg this]; exact h.res f m hm
      · rename_i hge
        cases hf : f - s.futs.length with
        | zero => simp [hf] at hm
        | succ n => simp [hf] at hm
    · intro i t f ht hf
      obtain ⟨a, b⟩ := h.fut i t f ht hf
      have : f ≠ s.futs.length := by omega
      simp only [if_neg this, List.length_append, List.length_singleton]
      exact ⟨a, by omega⟩
    · exact h.done
    · exact h.kind

/-- A new call. -/
theorem Inv.push {tag : Nat → Nat} {s : State} (h : Inv tag s) {t : Task} (h2 : ∀ f, t.fut = some f → tag f = t.hid ∧ f < s.futs.length)
    (h3 : ∀ m, t.pc ≠ .done (.ok m)) (h5 : t.fut = none → t.kind = .node ∧ t.pc = .sending) : Inv tag { s with tasks := s.tasks ++ [t] } := by
  have hc : ∀ (j : Nat) (u : Task), (s.tasks ++ [t])[j]? = some u → s.tasks[j]? = some u ∨ u = t := by
    intro j u hu
    rw [List.getElem?_append] at hu
    split at hu
    · exact Or.inl hu
    · cases hf : j - s.tasks.length with
      | zero => simp [hf] at hu; exact Or.inr hu.symm
      | succ n => simp [hf] at hu
  constructor
  · intro k f hk
    obtain ⟨a, b⟩ := h.sess k f hk
    refine ⟨a, b.imp id ?_⟩
    rintro ⟨c, j, u, hu, e⟩
    exact ⟨c, j, u, by simp only; rw [List.getElem?_append_left (lt_of_getElem? hu)]; exact hu, e⟩
  · exact h.res
  · intro j u f hu hf
    rcases hc j u hu with hu | rfl
    · exact h.fut j u f hu hf
    · exact h2 f hf
  · intro j u m hu hm
    rcases hc j u hu with hu | rfl
    · exact h.done j u m hu hm
    · exact absurd hm (h3 m)
  · intro j u hu hf
    rcases hc j u hu with hu | rfl
    · exact h.kind j u hu hf
    · exact ⟨(h5 hf).1, Or.inl (h5 hf).2⟩

/-- Removing a session. -/
theorem Inv.erase {tag : Nat → Nat} {s : State} (h : Inv tag s) (k : Nat) : Inv tag { s with sessions := s.sessions.erase k } where
  sess k' f hk := h.sess k' f (Dict.get?_erase_some hk).2
  res := h.res
  fut := h.fut
  done := h.done
  kind := h.kind

/-- Completing a future whose session has been removed. -/
theorem Inv.setFut {tag : Nat → Nat} {s : State} (h : Inv tag s) {f : Nat} {x : Fut} (hn : s.sessions.get? (tag f) = none)
    (hr : ∀ m, x = .result m → m.hid = tag f) : Inv tag { s with futs := s.futs.set f x } where
  sess k g hk := by
    obtain ⟨a, b⟩ := h.sess k g hk
    have e : f ≠ g := by
      rintro rfl
      rw [← a, hn] at hk; cases hk
    simp only [List.getElem?_set_ne e]
    exact ⟨a, b⟩
  res g m hg := by
    rcases getElem?_set_cases hg with ⟨e, e'⟩ | ⟨e, hg⟩
    · subst e; exact hr m e'.symm
    · exact h.res g m hg
  fut i t g ht hf := by simpa using h.fut i t g ht hf
  done := h.done
  kind := h.kind

theorem Inv.step {tag : Nat → Nat} {s : State} (h : Inv tag s) (op : Op) : ∃ tag', Inv tag' (step s op) := by
  cases op with
  | call k hid to =>
    obtain ⟨tag', h', e, hl⟩ := h.add hid
    refine ⟨tag', ?_⟩
    simp only [Waiter.step]
    refine h'.push ?_ ?_ ?_
    · cases k <;> intro f hf
      · cases hf; exact ⟨e, hl⟩
      · cases hf; exact ⟨e, hl⟩
      · cases hf
    · cases k <;> intro m hm <;> cases hm
    · cases k <;> intro hf
      · cases hf
      · cases hf
      · exact ⟨rfl, rfl⟩
  | sendDone i ok =>
    simp only [Waiter.step]
    split
    · exact ⟨tag, h⟩
    · rename_i t ht
      split
      · exact ⟨tag, h⟩
      · rename_i hpc
        have hpc : t.pc = .sending := Decidable.not_not.mp hpc
        split
        · rename_i hk
          split
          · obtain ⟨tag', h', e, hl⟩ := h.add t.hid
            refine ⟨tag', h'.setTask (t := t) (by rw [add_tasks]; exact ht) rfl ?_ ?_ ?_ ?_⟩
            · intro f hf; cases hf; exact ⟨e, hl⟩
            · intro m hm; cases hm
            · intro e; rw [hpc] at e; cases e
            · intro hf; cases hf
          · refine ⟨tag, h.setTask ht rfl (h.fut i t · ht) ?_ ?_ ?_⟩
            · intro m hm; cases hm
            · intro e; rw [hpc] at e; cases e
            · intro hf; exact ⟨hk, Or.inr ⟨_, rfl⟩⟩
        · rename_i f hf _
          refine ⟨tag, h.setTask ht rfl (h.fut i t · ht) ?_ ?_ ?_⟩
          · intro m hm; cases hm
          · intro e; rw [hpc] at e; cases e
          · intro e; rw [hf] at e; cases e
        · exact ⟨tag, h⟩
  | sendRaise i e =>
    simp only [Waiter.step]
    split
    · exact ⟨tag, h⟩
    · rename_i t ht
      split
      · exact ⟨tag, h⟩
      · rename_i hpc
        have hpc : t.pc = .sending := Decidable.not_not.mp hpc
        refine ⟨tag, h.setTask ht rfl (h.fut i t · ht) ?_ ?_ ?_⟩
        · intro m hm; cases hm
        · intro e; rw [hpc] at e; cases e
        · intro hf; exact ⟨(h.kind i t ht hf).1, Or.inr ⟨_, rfl⟩⟩
  | message m =>
    simp only [Waiter.step, messageReceived]
    split
    · exact ⟨tag, h⟩
    · rename_i f hf
      obtain ⟨a, -⟩ := h.sess _ f hf
      split
      · refine ⟨tag, (h.erase m.hid).setFut (x := .result m) ?_ ?_⟩
        · rw [a]; exact Dict.get?_erase_self _ _
        · intro m' e; cases e; exact a.symm
      · exact ⟨tag, h.erase m.hid⟩
  | tick => exact ⟨tag, ⟨h.sess, h.res, h.fut, h.done, h.kind⟩⟩
  | timer i =>
    simp only [Waiter.step]
    split
    · exact ⟨tag, h⟩
    · rename_i t ht
      split
      · rename_i hpc
        refine ⟨tag, h.setTask ht rfl (h.fut i t · ht) ?_ ?_ ?_⟩
        · intro m hm; cases hm
        · intro e; rw [hpc.1] at e; cases e
        · intro hf
          rcases (h.kind i t ht hf).2 with e | ⟨r, e⟩ <;> rw [hpc.1] at e <;> cases e
      · exact ⟨tag, h⟩
  | resume i =>
    simp only [Waiter.step]
    split
    · exact ⟨tag, h⟩
    · rename_i t ht
      split
      · rename_i hpc
        split
        · exact ⟨tag, h⟩
        · rename_i f hf
          obtain ⟨a, hl⟩ := h.fut i t f ht hf
          split
          · rename_i m hm
            exact ⟨tag, h.finish ht (by intro m' e; cases e; rw [← a]; exact h.res f m hm)⟩
          · exact ⟨tag, h.finish ht (by intro m' e; cases e)⟩
          · split
            · rename_i hnr hnc hto
              refine ⟨tag, ?_⟩
              have h1 : Inv tag { s with tasks := s.tasks.set i { t with pc := .cancelling } } := by
                refine h.setTask ht rfl (h.fut i t · ht) ?_ ?_ ?_
                · intro m hm; cases hm
                · intro e; simp [hto] at e
                · intro e; rw [hf] at e; cases e
              constructor
              · intro k g hk
                obtain ⟨b, c⟩ := h1.sess k g hk
                refine ⟨b, ?_⟩
                by_cases e : f = g
                · subst e
                  exact Or.inr ⟨by simp only; rw [List.getElem?_set_self hl], i, _, getElem?_set_some ht, a.symm.trans b, rfl⟩
                · simp only [List.getElem?_set_ne e]; exact c
              · intro g m hg
                rcases getElem?_set_cases hg with ⟨e, e'⟩ | ⟨e, hg⟩
                · cases e'
                · exact h1.res g m hg
              · intro j u g hu hg; simpa using h1.fut j u g hu hg
              · exact h1.done
              · exact h1.kind
            · exact ⟨tag, h⟩
      · exact ⟨tag, h⟩
  | cancelDone i =>
    simp only [Waiter.step]
    split
    · exact ⟨tag, h⟩
    · rename_i t ht
      split
      · exact ⟨tag, h.finish ht (by intro m' e; cases e)⟩
      · exact ⟨tag, h⟩
  | kill i =>
    simp only [Waiter.step]
    split
    · exact ⟨tag, h⟩
    · rename_i t ht
      split
      · exact ⟨tag, h⟩
      · rename_i hpc
        refine ⟨tag, h.setTask ht rfl (h.fut i t · ht) ?_ ?_ ?_⟩
        · intro m hm; cases hm
        · intro e; rw [hpc] at e; cases e
        · intro hf; exact ⟨(h.kind i t ht hf).1, Or.inr ⟨_, rfl⟩⟩
      · split
        · exact ⟨tag, h⟩
        · rename_i f hf
          obtain ⟨a, hl⟩ := h.fut i t f ht hf
          have h1 : Inv tag (Waiter.finish s i t (.error .cancelled)) := h.finish ht (by intro m' e; cases e)
          split
          · refine ⟨tag, h1.setFut (f := f) (x := .cancelled) ?_ ?_⟩
            · rw [a]; exact Dict.get?_erase_self _ _
            · intro m e; cases e
          · exact ⟨tag, h1⟩

/-- Every state reached from the start satisfies the invariant. -/
theorem inv_run (ops : List Op) : ∃ tag, Inv tag (run init ops) := by
  have : ∀ (ops : List Op) (s : State) (tag : Nat → Nat), Inv tag s → ∃ tag', Inv tag' (run s ops) := by
    intro ops
    induction ops with
    | nil => intro s tag h; exact ⟨tag, h⟩
    | cons op ops ih =>
      intro s tag h
      obtain ⟨tag', h'⟩ := h.step op
      exact ih _ tag' h'
  exact this ops init _ inv_init

/-! ## A call whose message has arrived -/

/-- The message `m` has been delivered to the future the call `i` waits for. -/
def Resolved (s : State) (i : Nat) (m : Msg) : Prop :=
  ∃ t f, s.tasks[i]? = some t ∧ t.fut = some f ∧ s.futs[f]? = some (.result m) ∧
    ((t.pc = .sending ∧ t.kind ≠ .node) ∨ t.pc = .waiting ∨ t.pc = .timedOut ∨ t.pc = .done (.ok m))

theorem Resolved.step {s : State} {i : Nat} {m : Msg} (h : Resolved s i m) {op : Op} (h1 : op ≠ .kill i) (h2 : ∀ e, op ≠ .sendRaise i e) :
    Resolved (step s op) i m := by
  obtain ⟨t, f, ht, hf, hr, hpc⟩ := h
  by_cases ho : op.target = some i
  · have hr' := step_result s op f m hr
    cases op with
    | sendDone j ok =>
      cases ho
      simp only [Waiter.step, ht] at hr' ⊢
      by_cases hs : t.pc = .sending
      · have hk : t.kind ≠ .node := by
          rcases hpc with ⟨-, h⟩ | h | h | h
          · exact h
          all_goals rw [hs] at h; cases h
        rw [if_neg (by simpa using hs)] at hr' ⊢
        refine ⟨{ t with deadline := s.now + t.timeout, pc := .waiting }, f, ?_, hf, ?_, Or.inr (Or.inl rfl)⟩
        · cases hk' : t.kind with
          | node => exact absurd hk' hk
          | plain => simp only [hf]; exact getElem?_set_some ht
          | adapter => simp only [hf]; exact getElem?_set_some ht
        · exact hr'
      · rw [if_pos hs]
        exact ⟨t, f, ht, hf, hr, hpc⟩
    | sendRaise j e => cases ho; exact absurd rfl (h2 e)
    | timer j =>
      cases ho
      simp only [Waiter.step, ht]
      split
      · exact ⟨_, f, getElem?_set_some ht, hf, hr, Or.inr (Or.inr (Or.inl rfl))⟩
      · exact ⟨t, f, ht, hf, hr, hpc⟩
    | resume j =>
      cases ho
      simp only [Waiter.step, ht, hf, hr]
      split
      · exact ⟨_, f, getElem?_set_some ht, hf, hr, Or.inr (Or.inr (Or.inr rfl))⟩
      · exact ⟨t, f, ht, hf, hr, hpc⟩
    | cancelDone j =>
      cases ho
      simp only [Waiter.step, ht]
      rw [if_neg]
      · exact ⟨t, f, ht, hf, hr, hpc⟩
      · intro e
        rcases hpc with ⟨h, -⟩ | h | h | h <;> rw [e] at h <;> cases h
    | kill j => cases ho; exact absurd rfl h1
    | call k h to => cases ho
    | message m' => cases ho
    | tick => cases ho
  · exact ⟨t, f, step_task_other s op i t ht ho, hf, step_result s op f m hr, hpc⟩

theorem Resolved.run {i : Nat} {m : Msg} : ∀ (ops : List Op) {s : State}, Resolved s i m → .kill i ∉ ops → (∀ e, .sendRaise i e ∉ ops) →
    Resolved (run s ops) i m := by
  intro ops
  induction ops with
  | nil => intro s h _ _; exact h
  | cons op ops ih =>
    intro s h h1 h2
    simp only [List.mem_cons, not_or] at h1 h2
    exact ih (h.step (fun e => h1.1 e.symm) (fun x e => (h2 x).1 e.symm)) h1.2 (fun x => (h2 x).2)

/-- Once the send is over and the call runs, it returns the message. -/
theorem Resolved.finish {s : State} {i : Nat} {m : Msg} (h : Resolved s i m) (ok : Bool) :
    ∃ t, (Waiter.run s [.sendDone i ok, .resume i]).tasks[i]? = some t ∧ t.pc = .done (.ok m) := by
  have h1 : Resolved (Waiter.step s (.sendDone i ok)) i m := h.step (by simp) (by simp)
  obtain ⟨t, f, ht, hf, hr, hpc⟩ := h1
  have hns : t.pc ≠ .sending := by
    intro hs
    obtain ⟨t0, f0, ht0, hf0, hr0, hpc0⟩ := h
    by_cases hs0 : t0.pc = .sending
    · have hk : t0.kind ≠ .node := by
        rcases hpc0 with ⟨-, h⟩ | h | h | h
        · exact h
        all_goals rw [hs0] at h; cases h
      have : (Waiter.step s (.sendDone i ok)).tasks[i]? = some { t0 with deadline := s.now + t0.timeout, pc := .waiting } := by
        simp only [Waiter.step, ht0]
        rw [if_neg (by simpa using hs0)]
        cases hk' : t0.kind with
        | node => exact absurd hk' hk
        | plain => simp only [hf0]; exact getElem?_set_some ht0
        | adapter => simp only [hf0]; exact getElem?_set_some ht0
      rw [ht] at this; cases this; cases hs
    · have : (Waiter.step s (.sendDone i ok)).tasks[i]? = some t0 := by
        simp only [Waiter.step, ht0]
        rw [if_pos hs0]; exact ht0
      rw [ht] at this; cases this; exact hs0 hs
  show ∃ u, (Waiter.step (Waiter.step s (.sendDone i ok)) (.resume i)).tasks[i]? = some u ∧ u.pc = _
  generalize Waiter.step s (.sendDone i ok) = s' at *
  simp only [Waiter.step, ht, hf, hr]
  by_cases hw : t.pc = .waiting ∨ t.pc = .timedOut
  · rw [if_pos hw]
    exact ⟨_, getElem?_set_some ht, rfl⟩
  · rw [if_neg hw]
    refine ⟨t, ht, ?_⟩
    rcases hpc with ⟨h, -⟩ | h | h | h
    · exact absurd h hns
    · exact absurd (Or.inl h) hw
    · exact absurd (Or.inr h) hw
    · exact h

/-! ## A call that is alone in waiting for its type -/

/-- The call `i` waits for type `h` and no other unfinished call does; its session is registered. -/
def Alone (s : State) (i h : Nat) : Prop :=
  (∃ f t, s.sessions.get? h = some f ∧ s.futs[f]? = some .pending ∧ s.tasks[i]? = some t ∧ t.hid = h ∧
    ((t.pc = .sending ∧ t.deadline = 0 ∧ (t.kind = .node ∨ t.fut = some f ∧ t.kind = .adapter)) ∨ (t.pc = .waiting ∧ t.fut = some f)) ∧
    ∀ (j : Nat) (u : Task), j ≠ i → s.tasks[j]? = some u → u.hid = h → ∃ r, u.pc = .done r)

/-- The timer of the call `i` has expired (or its send failed). -/
def Late (s : State) (i : Nat) : Prop :=
  ∃ t, s.tasks[i]? = some t ∧ t.deadline ≤ s.now ∧ t.pc ≠ .sending ∧ t.pc ≠ .waiting

theorem step_now (s : State) (op : Op) : s.now ≤ (step s op).now := by
  cases op with
  | call k h to => simp only [step, add_now]; exact Nat.le_refl _
  | message m => simp only [step, msg_now]; exact Nat.le_refl _
  | tick => simp [step]
  | sendDone j ok =>
    simp only [step]
    split
    · exact Nat.le_refl _
    · split
      · exact Nat.le_refl _
      · split
        · split
          · simp only [add_now]; exact Nat.le_refl _
          · exact Nat.le_refl _
        · exact Nat.le_refl _
        · exact Nat.le_refl _
  | sendRaise j e => simp only [step]; split; · exact Nat.le_refl _
                     · split <;> exact Nat.le_refl _
  | timer j => simp only [step]; split; · exact Nat.le_refl _
               · split <;> exact Nat.le_refl _
  | resume j =>
    simp only [step, finish]
    split
    · exact Nat.le_refl _
    · split
      · split
        · exact Nat.le_refl _
        · split
          · exact Nat.le_refl _
          · exact Nat.le_refl _
          · split <;> exact Nat.le_refl _
      · exact Nat.le_refl _
  | cancelDone j => simp only [step, finish]; split; · exact Nat.le_refl _
                    · split <;> exact Nat.le_refl _
  | kill j =>
    simp only [step, finish]
    split
    · exact Nat.le_refl _
    · split
      · exact Nat.le_refl _
      · exact Nat.le_refl _
      · split
        · exact Nat.le_refl _
        · split <;> exact Nat.le_refl _

theorem Late.step {s : State} {i : Nat} (h : Late s i) (op : Op) : Late (step s op) i := by
  obtain ⟨t, ht, hd, h1, h2⟩ := h
  have hn := step_now s op
  by_cases ho : op.target = some i
  · cases op with
    | sendDone j ok =>
      cases ho
      simp only [Waiter.step, ht]
      rw [if_pos h1]
      exact ⟨t, ht, hd, h1, h2⟩
    | sendRaise j e =>
      cases ho
      simp only [Waiter.step, ht]
      rw [if_pos h1]
      exact ⟨t, ht, hd, h1, h2⟩
    | timer j =>
      cases ho
      simp only [Waiter.step, ht]
      rw [if_neg (fun e => h2 e.1)]
      exact ⟨t, ht, hd, h1, h2⟩
    | resume j =>
      cases ho
      simp only [Waiter.step, ht, Waiter.finish]
      split
      · split
        · exact ⟨t, ht, hd, h1, h2⟩
        · split
          · exact ⟨_, getElem?_set_some ht, hd, by simp, by simp⟩
          · exact ⟨_, getElem?_set_some ht, hd, by simp, by simp⟩
          · split
            · exact ⟨_, getElem?_set_some ht, hd, by simp, by simp⟩
            · exact ⟨t, ht, hd, h1, h2⟩
      · exact ⟨t, ht, hd, h1, h2⟩
    | cancelDone j =>
      cases ho
      simp only [Waiter.step, ht, Waiter.finish]
      split
      · exact ⟨_, getElem?_set_some ht, hd, by simp, by simp⟩
      · exact ⟨t, ht, hd, h1, h2⟩
    | kill j =>
      cases ho
      simp only [Waiter.step, ht, Waiter.finish]
      split
      · exact ⟨t, ht, hd, h1, h2⟩
      · exact ⟨_, getElem?_set_some ht, hd, by simp, by simp⟩
      · split
        · exact ⟨t, ht, hd, h1, h2⟩
        · split <;> exact ⟨_, getElem?_set_some ht, hd, by simp, by simp⟩
    | call k h to => cases ho
    | message m' => cases ho
    | tick => cases ho
  · exact ⟨t, step_task_other s op i t ht ho, Nat.le_trans hd hn, h1, h2⟩

/-- The operation neither delivers a message of type `h` nor starts a call for it. -/
def Op.foreign (h : Nat) : Op → Prop
  | .call _ h' _ => h' ≠ h
  | .message m => m.hid ≠ h
  | _ => True

/-- Calls for other types, and finished calls, do not touch the session of a type. -/
theorem sess_frame {tag : Nat → Nat} {s : State} (hi : Inv tag s) {h f : Nat} {x : Fut} {op : Op} (hs : s.sessions.get? h = some f)
    (hx : s.futs[f]? = some x) (hop : op.foreign h)
    (hother : ∀ (j : Nat) (u : Task), op.target = some j → s.tasks[j]? = some u → u.hid = h → ∃ r, u.pc = .done r) :
    (step s op).sessions.get? h = some f ∧ (step s op).futs[f]? = some x := by
  have htag := (hi.sess h f hs).1
  have hset : ∀ (g : Nat) (y : Fut), tag g ≠ h → (s.futs.set g y)[f]? = some x := by
    intro g y hg
    rw [List.getElem?_set_ne (by rintro rfl; exact hg htag)]; exact hx
  have herase : ∀ h' : Nat, h' ≠ h → (s.sessions.erase h').get? h = some f := by
    intro h' hn; rw [Dict.get?_erase_ne _ hn]; exact hs
  cases op with
  | call k h' to =>
    simp only [Waiter.step]
    exact ⟨by rw [add_get_ne _ _ _ hop]; exact hs, add_futs s h' f x hx⟩
  | message m =>
    simp only [Waiter.step, messageReceived]
    split
    · exact ⟨hs, hx⟩
    · rename_i g hg
      split
      · exact ⟨herase _ hop, hset _ _ (by rw [(hi.sess _ g hg).1]; exact hop)⟩
      · exact ⟨herase _ hop, hx⟩
  | tick => exact ⟨hs, hx⟩
  | sendDone j ok =>
    simp only [Waiter.step]
    split
    · exact ⟨hs, hx⟩
    · rename_i t ht
      split
      · exact ⟨hs, hx⟩
      · rename_i hpc
        split
        · split
          · by_cases e : t.hid = h
            · obtain ⟨r, hr⟩ := hother j t rfl ht e
              exact absurd (by rw [hr]; simp) hpc
            · exact ⟨by simp only; rw [add_get_ne _ _ _ e]; exact hs, add_futs s _ f x hx⟩
          · exact ⟨hs, hx⟩
        · exact ⟨hs, hx⟩
        · exact ⟨hs, hx⟩
  | sendRaise j e => simp only [Waiter.step]; split; · exact ⟨hs, hx⟩
                     · split <;> exact ⟨hs, hx⟩
  | timer j => simp only [Waiter.step]; split; · exact ⟨hs, hx⟩
               · split <;> exact ⟨hs, hx⟩
  | resume j =>
    simp only [Waiter.step, Waiter.finish]
    split
    · exact ⟨hs, hx⟩
    · rename_i t ht
      split
      · rename_i hpc
        have e : t.hid ≠ h := by
          intro e
          obtain ⟨r, hr⟩ := hother j t rfl ht e
          rw [hr] at hpc
          simp at hpc
        split
        · exact ⟨hs, hx⟩
        · rename_i g hg
          split
          · exact ⟨herase _ e, hx⟩
          · exact ⟨herase _ e, hx⟩
          · split
            · exact ⟨hs, hset _ _ (by rw [(hi.fut j t g ht hg).1]; exact e)⟩
            · exact ⟨hs, hx⟩
      · exact ⟨hs, hx⟩
  | cancelDone j =>
    simp only [Waiter.step, Waiter.finish]
    split
    · exact ⟨hs, hx⟩
    · rename_i t ht
      split
      · rename_i hpc
        have e : t.hid ≠ h := by
          intro e
          obtain ⟨r, hr⟩ := hother j t rfl ht e
          rw [hr] at hpc
          simp at hpc
        exact ⟨herase _ e, hx⟩
      · exact ⟨hs, hx⟩
  | kill j =>
    simp only [Waiter.step, Waiter.finish]
    split
    · exact ⟨hs, hx⟩
    · rename_i t ht
      split
      · exact ⟨hs, hx⟩
      · exact ⟨hs, hx⟩
      · rename_i hnd hns
        have e : t.hid ≠ h := by
          intro e
          obtain ⟨r, hr⟩ := hother j t rfl ht e
          exact hnd r hr
        split
        · exact ⟨hs, hx⟩
        · rename_i g hg
          split
          · exact ⟨herase _ e, hset _ _ (by rw [(hi.fut j t g ht hg).1]; exact e)⟩
          · exact ⟨herase _ e, hx⟩

/-- The type of a call never changes and a finished call stays finished. -/
theorem step_task_back (s : State) (op : Op) (j : Nat) (u : Task) (hu : (step s op).tasks[j]? = some u) :
    (∃ k h' to, op = .call k h' to ∧ u.hid = h') ∨ ∃ u', s.tasks[j]? = some u' ∧ u'.hid = u.hid ∧ ((∃ r, u'.pc = .done r) → u = u') := by
  cases hj : s.tasks[j]? with
  | some u' =>
    right
    refine ⟨u', rfl, ?_⟩
    by_cases ho : op.target = some j
    · have key : ∀ t' : Task, t'.hid = u'.hid → (∀ r, u'.pc ≠ .done r) → (s.tasks.set j t')[j]? = some u →
          u'.hid = u.hid ∧ ((∃ r, u'.pc = .done r) → u = u') := by
        intro t' e hnd h
        rw [getElem?_set_some hj] at h
        cases h
        exact ⟨e.symm, fun ⟨r, hr⟩ => absurd hr (hnd r)⟩
      have same : s.tasks[j]? = some u → u'.hid = u.hid ∧ ((∃ r, u'.pc = .done r) → u = u') := by
        intro h; rw [hj] at h; cases h; exact ⟨rfl, fun _ => rfl⟩
      cases op with
      | sendDone k ok =>
        cases ho
        simp only [step, hj] at hu
        split at hu
        · exact same hu
        · rename_i hpc
          have hnd : ∀ r, u'.pc ≠ .done r := by intro r e; rw [e] at hpc; simp at hpc
          split at hu
          · split at hu
            · simp only [add_tasks] at hu; exact key _ (by rfl) hnd hu
            · exact key _ (by rfl) hnd hu
          · exact key _ (by rfl) hnd hu
          · exact same hu
      | sendRaise k e =>
        cases ho
        simp only [step, hj] at hu
        split at hu
        · exact same hu
        · rename_i hpc
          exact key _ (by rfl) (by intro r e; rw [e] at hpc; simp at hpc) hu
      | timer k =>
        cases ho
        simp only [step, hj] at hu
        split at hu
        · rename_i hpc
          exact key _ (by rfl) (by intro r e; rw [e] at hpc; simp at hpc) hu
        · exact same hu
      | resume k =>
        cases ho
        simp only [step, hj, finish] at hu
        split at hu
        · rename_i hpc
          have hnd : ∀ r, u'.pc ≠ .done r := by intro r e; rw [e] at hpc; simp at hpc
          split at hu
          · exact same hu
          · split at hu
            · exact key _ (by rfl) hnd hu
            · exact key _ (by rfl) hnd hu
            · split at hu
              · exact key _ (by rfl) hnd hu
              · exact same hu
        · exact same hu
      | cancelDone k =>
        cases ho
        simp only [step, hj, finish] at hu
        split at hu
        · rename_i hpc
          exact key _ (by rfl) (by intro r e; rw [e] at hpc; simp at hpc) hu
        · exact same hu
      | kill k =>
        cases ho
        simp only [step, hj, finish] at hu
        split at hu
        · exact same hu
        · rename_i hpc
          exact key _ (by rfl) (by intro r e; rw [e] at hpc; cases hpc) hu
        · rename_i hnd hns
          split at hu
          · exact same hu
          · split at hu <;> exact key _ (by rfl) hnd hu
      | call k h to => cases ho
      | message m' => cases ho
      | tick => cases ho
    · have := step_task_other s op j u' hj ho
      rw [this] at hu
      cases hu
      exact ⟨rfl, fun _ => rfl⟩
  | none =>
    left
    have hset : ∀ (i : Nat) (x : Task), (s.tasks.set i x)[j]? = some u → False := by
      intro i x h
      rcases getElem?_set_cases h with ⟨e, -⟩ | ⟨-, h⟩
      · subst e
        have := lt_of_getElem? h
        simp at this
        rw [List.getElem?_eq_none_iff] at hj
        omega
      · rw [hj] at h; cases h
    have hsame : s.tasks[j]? = some u → False := by intro h; rw [hj] at h; cases h
    cases op with
    | call k h to =>
      refine ⟨k, h, to, rfl, ?_⟩
      simp only [step] at hu
      rw [List.getElem?_append, add_tasks] at hu
      split at hu
      · rw [hj] at hu; cases hu
      · cases hz : j - s.tasks.length with
        | zero =>
          rw [hz] at hu
          cases k <;> (simp at hu; rw [← hu])
        | succ n => simp [hz] at hu
    | message m => simp only [step, msg_tasks] at hu; exact absurd hu hsame
    | tick => exact absurd hu hsame
    | sendDone k ok =>
      exfalso
      simp only [step] at hu
      split at hu
      · exact hsame hu
      · split at hu
        · exact hsame hu
        · split at hu
          · split at hu
            · simp only [add_tasks] at hu; exact hset _ _ hu
            · exact hset _ _ hu
          · exact hset _ _ hu
          · exact hsame hu
    | sendRaise k e =>
      exfalso
      simp only [step] at hu
      split at hu
      · exact hsame hu
      · split at hu
        · exact hsame hu
        · exact hset _ _ hu
    | timer k =>
      exfalso
      simp only [step] at hu
      split at hu
      · exact hsame hu
      · split at hu
        · exact hset _ _ hu
        · exact hsame hu
    | resume k =>
      exfalso
      simp only [step, finish] at hu
      split at hu
      · exact hsame hu
      · split at hu
        · split at hu
          · exact hsame hu
          · split at hu
            · exact hset _ _ hu
            · exact hset _ _ hu
            · split at hu
              · exact hset _ _ hu
              · exact hsame hu
        · exact hsame hu
    | cancelDone k =>
      exfalso
      simp only [step, finish] at hu
      split at hu
      · exact hsame hu
      · split at hu
        · exact hset _ _ hu
        · exact hsame hu
    | kill k =>
      exfalso
      simp only [step, finish] at hu
      split at hu
      · exact hsame hu
      · split at hu
        · exact hsame hu
        · exact hset _ _ hu
        · split at hu
          · exact hsame hu
          · split at hu <;> exact hset _ _ hu

/-- While nothing of the type arrives, the call stays alone or its timer expires. -/
theorem Alone.step {tag : Nat → Nat} {s : State} (hi : Inv tag s) {i h : Nat} (ha : Alone s i h) {op : Op} (hop : op.foreign h)
    (h1 : op ≠ .kill i) (h2 : ∀ e, op ≠ .sendRaise i e) : Alone (step s op) i h ∨ Late (step s op) i := by
  obtain ⟨f, t, hs, hf, ht, hh, hpc, hoth⟩ := ha
  have hoth' : ∀ (j : Nat) (u : Task), j ≠ i → (Waiter.step s op).tasks[j]? = some u → u.hid = h → ∃ r, u.pc = .done r := by
    intro j u hj hu hu'
    rcases step_task_back s op j u hu with ⟨k, h', to, e1, e2⟩ | ⟨u', a, b, c⟩
    · subst e1
      exact absurd (e2.symm.trans hu') hop
    · obtain ⟨r, hr⟩ := hoth j u' hj a (b.trans hu')
      exact ⟨r, by rw [c ⟨r, hr⟩]; exact hr⟩
  by_cases ho : op.target = some i
  · cases op with
    | sendDone j ok =>
      cases ho
      rcases hpc with ⟨hp, hd, hk⟩ | ⟨hp, hk⟩
      · cases hk0 : t.kind with
        | node =>
          cases ok with
          | true =>
            left
            have e : Waiter.step s (.sendDone i true) = { s with tasks := s.tasks.set i { t with fut := some f, deadline := s.now + t.timeout, pc := .waiting } } := by
              simp only [Waiter.step, ht, hp, hk0, addWaitingSession, hh, hs]
              simp
            rw [e] at hoth' ⊢
            exact ⟨f, _, hs, hf, getElem?_set_some ht, hh, Or.inr ⟨rfl, rfl⟩, hoth'⟩
          | false =>
            right
            have e : Waiter.step s (.sendDone i false) = { s with tasks := s.tasks.set i { t with pc := .done (.error .timeout) } } := by
              simp only [Waiter.step, ht, hp, hk0]
              simp
            rw [e]
            exact ⟨_, getElem?_set_some ht, by simp [hd], by simp, by simp⟩
        | plain =>
          rcases hk with hk | ⟨-, hk⟩ <;> rw [hk0] at hk <;> cases hk
        | adapter =>
          left
          have hk' : t.fut = some f := by
            rcases hk with hk | ⟨hk, -⟩
            · rw [hk0] at hk; cases hk
            · exact hk
          have e : Waiter.step s (.sendDone i ok) = { s with tasks := s.tasks.set i { t with deadline := s.now + t.timeout, pc := .waiting } } := by
            simp only [Waiter.step, ht, hp, hk0, hk']
            simp
          rw [e] at hoth' ⊢
          exact ⟨f, _, hs, hf, getElem?_set_some ht, hh, Or.inr ⟨rfl, hk'⟩, hoth'⟩
      · left
        have e : Waiter.step s (.sendDone i ok) = s := by
          simp only [Waiter.step, ht, hp]
          simp
        rw [e]
        exact ⟨f, t, hs, hf, ht, hh, Or.inr ⟨hp, hk⟩, hoth⟩
    | sendRaise j e => cases ho; exact absurd rfl (h2 e)
    | timer j =>
      cases ho
      by_cases hp : t.pc = .waiting ∧ t.deadline ≤ s.now
      · right
        refine ⟨{ t with pc := .timedOut }, ?_, ?_, by simp, by simp⟩
        · simp only [Waiter.step, ht]; rw [if_pos hp]; exact getElem?_set_some ht
        · simp only [Waiter.step, ht]; rw [if_pos hp]; exact hp.2
      · left
        have e : Waiter.step s (.timer i) = s := by simp only [Waiter.step, ht]; rw [if_neg hp]
        rw [e]
        exact ⟨f, t, hs, hf, ht, hh, hpc, hoth⟩
    | resume j =>
      cases ho
      left
      have e : Waiter.step s (.resume i) = s := by
        simp only [Waiter.step, ht]
        rcases hpc with ⟨hp, hk⟩ | ⟨hp, hk⟩
        · simp [hp]
        · simp [hp, hk, hf]
      rw [e]
      exact ⟨f, t, hs, hf, ht, hh, hpc, hoth⟩
    | cancelDone j =>
      cases ho
      left
      have e : Waiter.step s (.cancelDone i) = s := by
        simp only [Waiter.step, ht]
        rcases hpc with ⟨hp, hk⟩ | ⟨hp, hk⟩ <;> simp [hp]
      rw [e]
      exact ⟨f, t, hs, hf, ht, hh, hpc, hoth⟩
    | kill j => cases ho; exact absurd rfl h1
    | call k h to => cases ho
    | message m' => cases ho
    | tick => cases ho
  · left
    obtain ⟨a, b⟩ := sess_frame hi hs hf hop (fun j u hj hu hu' => hoth j u (by rintro rfl; exact ho hj) hu hu')
    exact ⟨f, t, a, b, step_task_other s op i t ht ho, hh, hpc, hoth'⟩

theorem Inv.run {tag : Nat → Nat} {s : State} (h : Inv tag s) (ops : List Op) : ∃ tag', Inv tag' (Waiter.run s ops) := by
  induction ops generalizing s tag with
  | nil => exact ⟨tag, h⟩
  | cons op ops ih =>
    obtain ⟨tag', h'⟩ := h.step op
    exact ih h'

theorem Alone.run {i h : Nat} : ∀ (ops : List Op) {tag : Nat → Nat} {s : State}, Inv tag s → Alone s i h → (∀ op ∈ ops, op.foreign h) →
    .kill i ∉ ops → (∀ e, .sendRaise i e ∉ ops) → Alone (run s ops) i h ∨ Late (run s ops) i := by
  intro ops
  induction ops with
  | nil => intro tag s _ h _ _ _; exact Or.inl h
  | cons op ops ih =>
    intro tag s hi h hop h1 h2
    simp only [List.mem_cons, not_or] at h1 h2
    have late : ∀ (l : List Op) (s : State), Late s i → Late (Waiter.run s l) i := by
      intro l
      induction l with
      | nil => intro s h; exact h
      | cons x l ihl => intro s h; exact ihl _ (h.step x)
    obtain ⟨tag', hi'⟩ := hi.step op
    rcases h.step hi (hop op List.mem_cons_self) (fun e => h1.1 e.symm) (fun x e => (h2 x).1 e.symm) with h | h
    · exact ih hi' h (fun o ho => hop o (List.mem_cons_of_mem _ ho)) h1.2 (fun x => (h2 x).2)
    · exact Or.inr (late ops _ h)

/-- The message a lonely call waits for. -/
theorem Alone.message {s : State} {i : Nat} {m : Msg} (h : Alone s i m.hid) {t : Task} (ht : s.tasks[i]? = some t) (hk : t.pc = .sending → t.kind ≠ .node) :
    Resolved (Waiter.step s (.message m)) i m := by
  obtain ⟨f, t', hs, hf, ht', hh, hpc, -⟩ := h
  rw [ht] at ht'; cases ht'
  have hfut : t.fut = some f := by
    rcases hpc with ⟨a, -, b | b⟩ | b
    · exact absurd b (hk a)
    · exact b.1
    · exact b.2
  refine ⟨t, f, ?_, hfut, ?_, ?_⟩
  · simp only [Waiter.step, msg_tasks]; exact ht
  · simp only [Waiter.step, messageReceived, hs, hf]
    exact getElem?_set_some hf
  · rcases hpc with ⟨a, -⟩ | b
    · exact Or.inl ⟨a, hk a⟩
    · exact Or.inr (Or.inl b.1)

/-- A new call for a type nobody waits for is alone. -/
theorem Alone.call {tag : Nat → Nat} {s : State} (hi : Inv tag s) {h : Nat}
    (hn : ∀ (j : Nat) (u : Task), s.tasks[j]? = some u → u.hid = h → ∃ r, u.pc = .done r) (k : Kind) (to : Nat) :
    Alone (Waiter.step s (.call k h to)) s.tasks.length h := by
  have hg := add_get s h
  have hp : (addWaitingSession s h).1.futs[(addWaitingSession s h).2]? = some .pending := by
    cases hs : s.sessions.get? h with
    | none => simp [addWaitingSession, hs]
    | some f =>
      simp only [addWaitingSession, hs]
      rcases (hi.sess h f hs).2 with h' | ⟨-, j, u, hu, e1, e2⟩
      · exact h'
      · obtain ⟨r, hr⟩ := hn j u hu e1
        rw [e2] at hr; cases hr
  have hlen : (addWaitingSession s h).1.tasks.length = s.tasks.length := by rw [add_tasks]
  refine ⟨(addWaitingSession s h).2, match k with
      | .plain => ⟨k, h, to, some (addWaitingSession s h).2, (addWaitingSession s h).1.now + to, .waiting⟩
      | .adapter => ⟨k, h, to, some (addWaitingSession s h).2, 0, .sending⟩
      | .node => ⟨k, h, to, none, 0, .sending⟩, hg, hp, ?_, ?_, ?_, ?_⟩
  · simp only [Waiter.step]
    rw [List.getElem?_append_right (by omega), hlen]
    simp
    cases k <;> rfl
  · cases k <;> rfl
  · cases k
    · exact Or.inr ⟨rfl, rfl⟩
    · exact Or.inl ⟨rfl, rfl, Or.inr ⟨rfl, rfl⟩⟩
    · exact Or.inl ⟨rfl, rfl, Or.inl rfl⟩
  · intro j u hj hu hu'
    simp only [Waiter.step] at hu
    rw [List.getElem?_append] at hu
    split at hu
    · rw [add_tasks] at hu; exact hn j u hu hu'
    · rename_i hge
      have := lt_of_getElem? hu
      simp at this
      omega

/-- The kind of a call never changes, and neither does its future, except when the send of a node call ends. -/
theorem step_kind (s : State) (op : Op) (i : Nat) (t : Task) (ht : s.tasks[i]? = some t) :
    ∃ t', (step s op).tasks[i]? = some t' ∧ t'.kind = t.kind := by
  by_cases ho : op.target = some i
  · cases op with
    | sendDone j ok =>
      cases ho
      simp only [Waiter.step, ht]
      split
      · exact ⟨t, ht, rfl⟩
      · split
        · split
          · exact ⟨_, getElem?_set_some (by rw [add_tasks]; exact ht), rfl⟩
          · exact ⟨_, getElem?_set_some ht, rfl⟩
        · exact ⟨_, getElem?_set_some ht, rfl⟩
        · exact ⟨t, ht, rfl⟩
    | sendRaise j e =>
      cases ho
      simp only [Waiter.step, ht]
      split
      · exact ⟨t, ht, rfl⟩
      · exact ⟨_, getElem?_set_some ht, rfl⟩
    | timer j =>
      cases ho
      simp only [Waiter.step, ht]
      split
      · exact ⟨_, getElem?_set_some ht, rfl⟩
      · exact ⟨t, ht, rfl⟩
    | resume j =>
      cases ho
      simp only [Waiter.step, ht, Waiter.finish]
      split
      · split
        · exact ⟨t, ht, rfl⟩
        · split
          · exact ⟨_, getElem?_set_some ht, rfl⟩
          · exact ⟨_, getElem?_set_some ht, rfl⟩
          · split
            · exact ⟨_, getElem?_set_some ht, rfl⟩
            · exact ⟨t, ht, rfl⟩
      · exact ⟨t, ht, rfl⟩
    | cancelDone j =>
      cases ho
      simp only [Waiter.step, ht, Waiter.finish]
      split
      · exact ⟨_, getElem?_set_some ht, rfl⟩
      · exact ⟨t, ht, rfl⟩
    | kill j =>
      cases ho
      simp only [Waiter.step, ht, Waiter.finish]
      split
      · exact ⟨t, ht, rfl⟩
      · exact ⟨_, getElem?_set_some ht, rfl⟩
      · split
        · exact ⟨t, ht, rfl⟩
        · split <;> exact ⟨_, getElem?_set_some ht, rfl⟩
    | call k h to => cases ho
    | message m' => cases ho
    | tick => cases ho
  · exact ⟨t, step_task_other s op i t ht ho, rfl⟩

theorem call_task (s : State) (k : Kind) (h to : Nat) :
    (step s (.call k h to)).tasks[s.tasks.length]? = some (match k with
      | .plain => ⟨k, h, to, some (addWaitingSession s h).2, (addWaitingSession s h).1.now + to, .waiting⟩
      | .adapter => ⟨k, h, to, some (addWaitingSession s h).2, 0, .sending⟩
      | .node => ⟨k, h, to, none, 0, .sending⟩) := by
  simp only [step]
  rw [List.getElem?_append_right (by rw [add_tasks]; exact Nat.le_refl _), add_tasks]
  simp
  cases k <;> rfl

end Model.Waiter

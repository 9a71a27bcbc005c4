import Verif.Lemmas.Conn
import Verif.Lemmas.Waiter
import Verif.Lemmas.Fresh
/-!
# Lemmas: waiting calls end
-/
namespace Model

/-- The first of the required events happens, and the others after it. -/
theorem sublist_cons {α : Type} {a : α} {l ops : List α} (h : List.Sublist (a :: l) ops) : ∃ pre post, ops = pre ++ a :: post ∧ List.Sublist l post := by
  induction ops with
  | nil => cases h
  | cons o ops ih =>
    cases h with
    | cons _ h =>
      obtain ⟨pre, post, h1, h2⟩ := ih h
      exact ⟨o :: pre, post, by rw [h1]; rfl, h2⟩
    | cons_cons _ h => exact ⟨[], ops, rfl, h⟩

/-- The same with the first time it happens. -/
theorem sublist_first {α : Type} [DecidableEq α] {a : α} {l ops : List α} (h : List.Sublist (a :: l) ops) :
    ∃ pre post, ops = pre ++ a :: post ∧ List.Sublist l post ∧ a ∉ pre := by
  induction ops with
  | nil => cases h
  | cons o ops ih =>
    by_cases ho : o = a
    · subst ho
      cases h with
      | cons _ h => exact ⟨[], ops, rfl, (List.sublist_cons_self _ _).trans h, by simp⟩
      | cons_cons _ h => exact ⟨[], ops, rfl, h, by simp⟩
    · cases h with
      | cons _ h =>
        obtain ⟨pre, post, h1, h2, h3⟩ := ih h
        exact ⟨o :: pre, post, by rw [h1]; rfl, h2, by simp [h3, Ne.symm ho]⟩
      | cons_cons _ h => exact absurd rfl ho

end Model

namespace Model.Waiter

/-- How far a call is. -/
def Pc.rank : Pc → Nat
  | .sending => 0
  | .waiting => 1
  | .timedOut => 2
  | .cancelling => 3
  | .done _ => 4

/-- A call that waits since at most `d`, and is at least so far. -/
def Far (r d i : Nat) (s : State) : Prop := ∃ t, s.tasks[i]? = some t ∧ r ≤ t.pc.rank ∧ (t.deadline ≤ d ∨ t.pc.rank = 4) ∧ 1 ≤ t.pc.rank ∧ (t.pc.rank ≠ 4 → ∃ f, t.fut = some f)

theorem Far.le {r r' d i : Nat} {s : State} (h : Far r d i s) (hr : r' ≤ r) : Far r' d i s := by
  obtain ⟨t, h1, h2, h3⟩ := h
  exact ⟨t, h1, Nat.le_trans hr h2, h3⟩

/-- One step never takes a waiting call back. -/
theorem Far.step {r d i : Nat} {s : State} (h : Far r d i s) (o : Op) : Far r d i (Waiter.step s o) := by
  obtain ⟨t, ht, h2, h3, h4, h5⟩ := h
  have hlt := lt_of_getElem? ht
  have fin : ∀ (x : State) (t' : Task), x.tasks[i]? = some t' → t'.pc.rank = 4 → Far r d i x := fun x t' hx hr =>
    ⟨t', hx, by rw [hr]; exact Nat.le_trans h2 (by cases t.pc <;> simp [Pc.rank]), .inr hr, by omega, fun hn => absurd hr hn⟩
  by_cases hn : o.target = some i
  · cases o <;> simp only [Op.target, Option.some.injEq, reduceCtorEq] at hn <;> subst hn <;> simp only [Waiter.step, ht]
    · split
      · exact ⟨t, ht, h2, h3, h4, h5⟩
      · rename_i hp; simp only [ne_eq, Decidable.not_not] at hp; rw [hp] at h4; simp [Pc.rank] at h4
    · split
      · exact ⟨t, ht, h2, h3, h4, h5⟩
      · rename_i hp; simp only [ne_eq, Decidable.not_not] at hp; rw [hp] at h4; simp [Pc.rank] at h4
    · split
      · rename_i hp
        refine ⟨_, List.getElem?_set_self hlt, ?_, ?_, ?_, ?_⟩
        · rw [hp.1] at h2; simp [Pc.rank] at h2 ⊢; omega
        · rw [hp.1] at h3; simpa [Pc.rank] using h3
        · simp [Pc.rank]
        · intro _; exact h5 (by rw [hp.1]; simp [Pc.rank])
      · exact ⟨t, ht, h2, h3, h4, h5⟩
    · split
      · split
        · exact ⟨t, ht, h2, h3, h4, h5⟩
        · split
          · exact fin _ _ (List.getElem?_set_self hlt) rfl
          · exact fin _ _ (List.getElem?_set_self hlt) rfl
          · split
            · rename_i f hf _ _ _ hp
              refine ⟨_, List.getElem?_set_self hlt, ?_, ?_, ?_, fun _ => ⟨f, hf⟩⟩
              · rw [hp] at h2; simp [Pc.rank] at h2 ⊢; omega
              · rw [hp] at h3; simpa [Pc.rank] using h3
              · simp [Pc.rank]
            · exact ⟨t, ht, h2, h3, h4, h5⟩
      · exact ⟨t, ht, h2, h3, h4, h5⟩
    · split
      · exact fin _ _ (List.getElem?_set_self hlt) rfl
      · exact ⟨t, ht, h2, h3, h4, h5⟩
    · split
      · exact ⟨t, ht, h2, h3, h4, h5⟩
      · exact fin _ _ (List.getElem?_set_self hlt) rfl
      · split
        · exact ⟨t, ht, h2, h3, h4, h5⟩
        · split <;> exact fin _ _ (List.getElem?_set_self hlt) rfl
  · exact ⟨t, step_task_other s o i t ht hn, h2, h3, h4, h5⟩

theorem Far.run {r d i : Nat} (ops : List Op) : ∀ {s : State}, Far r d i s → Far r d i (Waiter.run s ops) := by
  induction ops with
  | nil => intro s h; exact h
  | cons o ops ih => intro s h; exact ih (h.step o)

theorem now_step (s : State) (o : Op) : s.now ≤ (step s o).now := by
  cases o <;> simp only [step, finish, messageReceived, addWaitingSession]
  all_goals repeat' split
  all_goals simp

theorem now_run (ops : List Op) : ∀ s : State, s.now ≤ (run s ops).now := by
  induction ops with
  | nil => intro s; exact Nat.le_refl _
  | cons o ops ih => intro s; exact Nat.le_trans (now_step s o) (ih _)

theorem ticks_split (n : Nat) (l ops : List Op) : ∀ s : State, List.Sublist (List.replicate n .tick ++ l) ops →
    ∃ pre post, ops = pre ++ post ∧ List.Sublist l post ∧ s.now + n ≤ (run s pre).now := by
  induction n generalizing ops with
  | zero => intro s h; exact ⟨[], ops, rfl, h, Nat.le_refl _⟩
  | succ n ih =>
    intro s h
    rw [List.replicate_succ, List.cons_append] at h
    obtain ⟨pre, post, h1, h2⟩ := sublist_cons h
    obtain ⟨pre', post', h3, h4, h5⟩ := ih post (run s (pre ++ [.tick])) h2
    refine ⟨pre ++ .tick :: pre', post', by rw [h1, h3]; simp, h4, ?_⟩
    rw [show pre ++ .tick :: pre' = (pre ++ [.tick]) ++ pre' by simp, run_append]
    have hm := now_run pre s
    have : (run s (pre ++ [.tick])).now = (run s pre).now + 1 := by rw [run_append]; rfl
    omega

theorem far_ends {d i n : Nat} {s : State} (h : Far 1 d i s) (hd : d ≤ s.now + n) (ops : List Op)
    (hs : List.Sublist (List.replicate n .tick ++ [.timer i, .resume i, .cancelDone i]) ops) : ∃ t r, (run s ops).tasks[i]? = some t ∧ t.pc = .done r := by
  obtain ⟨p1, q1, rfl, h1, hnow⟩ := ticks_split n _ ops s hs
  obtain ⟨p2, q2, rfl, h2⟩ := sublist_cons h1
  obtain ⟨p3, q3, rfl, h3⟩ := sublist_cons h2
  obtain ⟨p4, q4, rfl, -⟩ := sublist_cons h3
  have e : run s (p1 ++ (p2 ++ .timer i :: (p3 ++ .resume i :: (p4 ++ .cancelDone i :: q4)))) =
      run (step (run (step (run (step (run (run s p1) p2) (.timer i)) p3) (.resume i)) p4) (.cancelDone i)) q4 := by
    simp only [run_append, run_cons]
  rw [e]
  have f1 : Far 1 d i (run (run s p1) p2) := (h.run p1).run p2
  have n1 : d ≤ (run (run s p1) p2).now := Nat.le_trans (Nat.le_trans hd hnow) (now_run p2 _)
  -- the timer
  have f2 : Far 2 d i (step (run (run s p1) p2) (.timer i)) := by
    obtain ⟨t, ht, a1, a2, a3, a4⟩ := f1
    by_cases hp : t.pc = .waiting
    · have hdl : t.deadline ≤ d := a2.resolve_right (by rw [hp]; simp [Pc.rank])
      refine ⟨{ t with pc := .timedOut }, ?_, by simp [Pc.rank], .inl hdl, by simp [Pc.rank], fun _ => a4 (by rw [hp]; simp [Pc.rank])⟩
      simp only [step, ht]
      rw [if_pos ⟨hp, Nat.le_trans hdl n1⟩]
      exact List.getElem?_set_self (lt_of_getElem? ht)
    · refine ⟨t, ?_, ?_, a2, a3, a4⟩
      · simp only [step, ht]
        rw [if_neg (fun h => hp h.1)]; exact ht
      · cases hq : t.pc <;> simp_all [Pc.rank]
  have f3 := f2.run p3
  generalize run (step (run (run s p1) p2) (.timer i)) p3 = s3 at *
  have f4 : Far 3 d i (step s3 (.resume i)) := by
    obtain ⟨t, ht, a1, a2, a3, a4⟩ := f3
    have hlt := lt_of_getElem? ht
    by_cases hp : t.pc = .timedOut
    · obtain ⟨f, hf⟩ := a4 (by rw [hp]; simp [Pc.rank])
      simp only [step, ht, hp, or_true, if_true, hf]
      split
      · exact ⟨_, List.getElem?_set_self hlt, by simp [Pc.rank], .inr rfl, by simp [Pc.rank], fun h => absurd rfl h⟩
      · exact ⟨_, List.getElem?_set_self hlt, by simp [Pc.rank], .inr rfl, by simp [Pc.rank], fun h => absurd rfl h⟩
      · exact ⟨_, List.getElem?_set_self hlt, by simp [Pc.rank], .inl (a2.resolve_right (by rw [hp]; simp [Pc.rank])), by simp [Pc.rank], fun _ => ⟨f, rfl⟩⟩
    · refine ⟨t, ?_, ?_, a2, a3, a4⟩
      · simp only [step, ht]
        rw [if_neg (by rintro (h | h) <;> simp_all [Pc.rank])]; exact ht
      · cases hq : t.pc <;> simp_all [Pc.rank]
  have f5 := f4.run p4
  generalize run (step s3 (.resume i)) p4 = s4 at *
  have f6 : Far 4 d i (step s4 (.cancelDone i)) := by
    obtain ⟨t, ht, a1, a2, a3, a4⟩ := f5
    have hlt := lt_of_getElem? ht
    by_cases hp : t.pc = .cancelling
    · simp only [step, ht, hp, if_true, finish]
      exact ⟨_, List.getElem?_set_self hlt, by simp [Pc.rank], .inr rfl, by simp [Pc.rank], fun h => absurd rfl h⟩
    · refine ⟨t, ?_, ?_, a2, a3, a4⟩
      · simp only [step, ht, if_neg hp]
      · cases hq : t.pc <;> simp_all [Pc.rank]
  obtain ⟨t, ht, a1, -⟩ := f6.run q4
  cases hp : t.pc with
  | done r => exact ⟨t, r, ht, hp⟩
  | _ => rw [hp] at a1; simp [Pc.rank] at a1

end Model.Waiter

namespace Model.Conn

/-- How far a call of `send` is. -/
def Pc.rank : Pc → Nat
  | .waiting => 1
  | .timedOut => 2
  | .cancelling => 3
  | .done _ => 4

/-- A datagram arrives. -/
def Op.isPacket : Op → Bool
  | .packet _ => true
  | _ => false

/-- A call of `send` that is at least so far, and whose inner task is not done. -/
def Far (r d i : Nat) (s : State) : Prop := ∃ t, s.sends[i]? = some t ∧ r ≤ t.pc.rank ∧ (t.pc.rank = 4 ∨ t.deadline ≤ d ∧ t.inner = false)

theorem Far.step {r d i : Nat} {s : State} (h : Far r d i s) (o : Op) (ho : o.isPacket = false) : Far r d i (Conn.step s o) := by
  obtain ⟨t, ht, h2, h3⟩ := h
  obtain ⟨t', ht', tr⟩ := step_send s o i t ht
  have h4 : t.pc.rank ≤ 4 := by cases t.pc <;> simp [Pc.rank]
  refine ⟨t', ht', ?_⟩
  cases tr with
  | same => exact ⟨h2, h3⟩
  | queued => cases ho
  | received => cases ho
  | timer a b => rw [a] at h2 h3; simp [Pc.rank] at h2 h3 ⊢; exact ⟨by omega, h3⟩
  | rearm a b c => rcases h3 with h3 | ⟨-, h3⟩
                   · rcases b with b | b <;> rw [b] at h3 <;> simp [Pc.rank] at h3
                   · rw [a] at h3; cases h3
  | giveUp a b => rw [b] at h2 h3; simp [Pc.rank] at h2 h3 ⊢; exact ⟨by omega, h3⟩
  | success | failed | raised | killed => exact ⟨Nat.le_trans h2 h4, .inl rfl⟩

theorem Far.run {r d i : Nat} (ops : List Op) : ∀ {s : State}, Far r d i s → (∀ o ∈ ops, o.isPacket = false) → Far r d i (Conn.run s ops) := by
  induction ops with
  | nil => intro s h _; exact h
  | cons o ops ih => intro s h hp; exact ih (h.step o (hp o (by simp))) fun o ho => hp o (by simp [ho])

theorem ticks_split (n : Nat) (l ops : List Op) : ∀ s : State, List.Sublist (List.replicate n .tick ++ l) ops →
    ∃ pre post, ops = pre ++ post ∧ List.Sublist l post ∧ s.now + n ≤ (run s pre).now := by
  induction n generalizing ops with
  | zero => intro s h; exact ⟨[], ops, rfl, h, Nat.le_refl _⟩
  | succ n ih =>
    intro s h
    rw [List.replicate_succ, List.cons_append] at h
    obtain ⟨pre, post, h1, h2⟩ := sublist_cons h
    obtain ⟨pre', post', h3, h4, h5⟩ := ih post (run s (pre ++ [.tick])) h2
    refine ⟨pre ++ .tick :: pre', post', by rw [h1, h3]; simp, h4, ?_⟩
    rw [show pre ++ .tick :: pre' = (pre ++ [.tick]) ++ pre' by simp, run_append]
    have hm := run_now pre s
    have : (run s (pre ++ [.tick])).now = (run s pre).now + 1 := by rw [run_append]; rfl
    omega

theorem far_ends {d i n : Nat} {s : State} (h : Far 1 d i s) (hd : d ≤ s.now + n) (ops : List Op) (hp : ∀ o ∈ ops, o.isPacket = false)
    (hs : List.Sublist (List.replicate n .tick ++ [.timer i, .resume i, .cancelled i]) ops) : ∃ t r, (run s ops).sends[i]? = some t ∧ t.pc = .done r := by
  obtain ⟨p1, q1, rfl, h1, hnow⟩ := ticks_split n _ ops s hs
  obtain ⟨p2, q2, rfl, h2⟩ := sublist_cons h1
  obtain ⟨p3, q3, rfl, h3⟩ := sublist_cons h2
  obtain ⟨p4, q4, rfl, -⟩ := sublist_cons h3
  have e : run s (p1 ++ (p2 ++ .timer i :: (p3 ++ .resume i :: (p4 ++ .cancelled i :: q4)))) =
      run (step (run (step (run (step (run (run s p1) p2) (.timer i)) p3) (.resume i)) p4) (.cancelled i)) q4 := by
    simp only [run_append, run_cons]
  rw [e]
  have f1 : Far 1 d i (run (run s p1) p2) := (h.run p1 fun o ho => hp o (by simp [ho])).run p2 fun o ho => hp o (by simp [ho])
  have n1 : d ≤ (run (run s p1) p2).now := Nat.le_trans (Nat.le_trans hd hnow) (run_now p2 _)
  have f2 : Far 2 d i (step (run (run s p1) p2) (.timer i)) := by
    obtain ⟨t, ht, a1, a2⟩ := f1
    have hlt := Waiter.lt_of_getElem? ht
    by_cases hp : t.pc = .waiting
    · obtain ⟨hdl, hin⟩ := a2.resolve_left (by rw [hp]; simp [Pc.rank])
      refine ⟨{ t with pc := .timedOut }, ?_, by simp [Pc.rank], .inr ⟨hdl, hin⟩⟩
      simp only [step, ht]
      rw [if_pos ⟨hp, Nat.le_trans hdl n1⟩]
      exact List.getElem?_set_self hlt
    · refine ⟨t, ?_, ?_, a2⟩
      · simp only [step, ht]
        rw [if_neg (fun h => hp h.1)]; exact ht
      · cases hq : t.pc <;> simp_all [Pc.rank]
  have f3 := f2.run p3 fun o ho => hp o (by simp [ho])
  generalize run (step (run (run s p1) p2) (.timer i)) p3 = s3 at *
  have f4 : Far 3 d i (step s3 (.resume i)) := by
    obtain ⟨t, ht, a1, a2⟩ := f3
    have hlt := Waiter.lt_of_getElem? ht
    by_cases hp : t.pc = .timedOut
    · obtain ⟨hdl, hin⟩ := a2.resolve_left (by rw [hp]; simp [Pc.rank])
      refine ⟨{ t with pc := .cancelling }, ?_, by simp [Pc.rank], .inr ⟨hdl, hin⟩⟩
      simp only [step, ht, hin, hp]
      simp [hlt]
    · have : t.pc ≠ .waiting := by intro h; rw [h] at a1; simp [Pc.rank] at a1
      refine ⟨t, ?_, ?_, a2⟩
      · simp [step, ht, hp, this]
      · cases hq : t.pc <;> simp_all [Pc.rank]
  have f5 := f4.run p4 fun o ho => hp o (by simp [ho])
  generalize run (step s3 (.resume i)) p4 = s4 at *
  have f6 : Far 4 d i (step s4 (.cancelled i)) := by
    obtain ⟨t, ht, a1, a2⟩ := f5
    have hlt := Waiter.lt_of_getElem? ht
    by_cases hp : t.pc = .cancelling
    · simp only [step, ht, hp, if_true]
      split
      · exact ⟨_, List.getElem?_set_self hlt, by simp [Pc.rank], .inl rfl⟩
      · exact ⟨_, List.getElem?_set_self hlt, by simp [Pc.rank], .inl rfl⟩
    · refine ⟨t, ?_, ?_, a2⟩
      · simp only [step, ht, if_neg hp]
      · cases hq : t.pc <;> simp_all [Pc.rank]
  obtain ⟨t, ht, a1, -⟩ := f6.run q4 fun o ho => hp o (by simp [ho])
  cases hp : t.pc with
  | done r => exact ⟨t, r, ht, hp⟩
  | _ => rw [hp] at a1; simp [Pc.rank] at a1

/-- Before it runs: what a datagram has done stays. -/
theorem kept {s : State} {i : Nat} {t : Send} (ht : s.sends[i]? = some t) (ops : List Op) (hp : ∀ o ∈ ops, o.isPacket = false) (hr : .resume i ∉ ops) :
    ∃ t', (run s ops).sends[i]? = some t' ∧ t'.inner = t.inner ∧ t'.status = t.status ∧ t'.delay = t.delay ∧ t'.deadline = t.deadline := by
  induction ops generalizing s t with
  | nil => exact ⟨t, ht, rfl, rfl, rfl, rfl⟩
  | cons o ops ih =>
    obtain ⟨t1, h1, tr⟩ := step_send s o i t ht
    have h2 : t1.inner = t.inner ∧ t1.status = t.status ∧ t1.delay = t.delay ∧ t1.deadline = t.deadline := by
      have hpo := hp o (by simp)
      have hro : o ≠ .resume i := fun h => hr (by simp [h])
      cases tr with
      | queued => cases hpo
      | received => cases hpo
      | rearm | success | giveUp => exact absurd rfl hro
      | same | timer | failed | raised | killed => exact ⟨rfl, rfl, rfl, rfl⟩
    obtain ⟨t2, h3, a, b, c, d⟩ := ih h1 (fun o ho => hp o (by simp [ho])) (fun h => hr (by simp [h]))
    exact ⟨t2, h3, a.trans h2.1, b.trans h2.2.1, c.trans h2.2.2.1, d.trans h2.2.2.2⟩

/-- The first turn of the caller deals with what datagrams have done. -/
theorem first_turn {s : State} (hi : Inv s) {i : Nat} {t : Send} (ht : s.sends[i]? = some t) :
    Far 1 (max t.deadline (s.now + t.delay.toNat)) i (step s (.resume i)) := by
  obtain ⟨t', ht', tr⟩ := step_send s (.resume i) i t ht
  refine ⟨t', ht', by cases t'.pc <;> simp [Pc.rank], ?_⟩
  by_cases hd : t'.pc.rank = 4
  · exact .inl hd
  · right
    simp only [step, ht] at ht'
    have hlt := Waiter.lt_of_getElem? ht
    cases tr with
    | rearm => exact ⟨Nat.le_max_right _ _, rfl⟩
    | success => exact absurd rfl hd
    | giveUp a b => exact ⟨Nat.le_max_left _ _, a⟩
    | same =>
      refine ⟨Nat.le_max_left _ _, ?_⟩
      cases hin : t.inner with
      | false => rfl
      | true =>
        exfalso
        have hs := (hi.sends i t ht)
        by_cases hp : t.pc = .waiting ∨ t.pc = .timedOut
        · rw [hin] at ht'
          simp only [hp, and_self, if_true] at ht'
          split at ht'
          · rename_i hq
            rw [List.getElem?_set_self hlt] at ht'
            have := congrArg Send.inner (Option.some.inj ht')
            simp [hin] at this
          · rw [List.getElem?_set_self hlt] at ht'
            have := congrArg Send.pc (Option.some.inj ht')
            rw [← this] at hd; exact hd rfl
        · have hc : t.pc = .cancelling := by
            cases hq : t.pc <;> simp_all [Pc.rank]
          rw [hs.2.2.1 hc] at hin; cases hin

end Model.Conn

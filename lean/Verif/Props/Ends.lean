import Verif.Lemmas.Ends
/-!
# Property theorems C101: no call waits forever
-/
namespace Props
open Model

/-! ## Waiting for a message -/

namespace Ends
open Model.Waiter

/-- The call has ended. -/
def Over (s : State) (i : Nat) : Prop := ∃ t r, s.tasks[i]? = some t ∧ t.pc = .done r

/-- What the event loop does for call `i` when `n` seconds have passed, in this order: its timer fires, it runs, and it runs again when the cancellation has been processed. Any
number of other things may happen before, in between and after. -/
def TurnsFor (i n : Nat) (ops : List Op) : Prop := List.Sublist (List.replicate n .tick ++ [.timer i, .resume i, .cancelDone i]) ops

/-- **C101.** A call that waits for a message ends once its time has passed and it had its turns, whatever messages arrive and whatever other calls do. -/
theorem C101_waiting (ops1 ops2 : List Op) (i : Nat) (t : Task) (ht : (run init ops1).tasks[i]? = some t) (hp : t.pc ≠ .sending) (n : Nat)
    (hn : t.deadline ≤ (run init ops1).now + n) (h : TurnsFor i n ops2) : Over (run (run init ops1) ops2) i := by
  obtain ⟨tag, hi⟩ := inv_run ops1
  have hr : 1 ≤ t.pc.rank := by cases hq : t.pc <;> simp_all [Pc.rank]
  refine far_ends (d := t.deadline) ⟨t, ht, hr, .inl (Nat.le_refl _), hr, fun h4 => ?_⟩ hn ops2 h
  cases hf : t.fut with
  | some f => exact ⟨f, rfl⟩
  | none =>
    exfalso
    rcases (hi.kind i t ht hf).2 with h' | ⟨r, h'⟩
    · exact hp h'
    · rw [h'] at h4; exact h4 rfl

/-- **C101.** `waitForMessage()` with a timeout of `timeout` seconds ends in every continuation in which that time passes and it has its turns. -/
theorem C101_wait (ops1 ops2 : List Op) (hid timeout : Nat) (h : TurnsFor (run init ops1).tasks.length timeout ops2) :
    Over (run (step (run init ops1) (.call .plain hid timeout)) ops2) (run init ops1).tasks.length := by
  have e : step (run init ops1) (.call .plain hid timeout) = run init (ops1 ++ [.call .plain hid timeout]) := by rw [run_append]; rfl
  have ht := call_task (run init ops1) .plain hid timeout
  rw [e] at ht ⊢
  refine C101_waiting _ ops2 _ _ ht (by simp) timeout ?_ h
  rw [← e]
  simp [step, add_now]

theorem sendDone_far {s : State} {i : Nat} {t : Task} (ht : s.tasks[i]? = some t) (hp : t.pc = .sending) (hf : t.kind = .node ∨ ∃ f, t.fut = some f) (b : Bool) :
    Far 1 (s.now + t.timeout) i (step s (.sendDone i b)) := by
  have hlt := lt_of_getElem? ht
  simp only [step, ht, hp, ne_eq, not_true_eq_false, if_false]
  split
  · split
    · refine ⟨_, List.getElem?_set_self (by rw [add_tasks]; exact hlt), by simp [Pc.rank], .inl (by simp [add_now]), by simp [Pc.rank], fun _ => ⟨_, rfl⟩⟩
    · exact ⟨_, List.getElem?_set_self hlt, by simp [Pc.rank], .inr rfl, by simp [Pc.rank], fun h => absurd rfl h⟩
  · rename_i f hf' _
    exact ⟨_, List.getElem?_set_self hlt, by simp [Pc.rank], .inl (Nat.le_refl _), by simp [Pc.rank], fun _ => ⟨f, hf'⟩⟩
  · rename_i hf' hk
    rcases hf with hf | ⟨f, hf⟩
    · exact absurd hf hk
    · rw [hf'] at hf; cases hf

/-- A call of `sendAndReceive` that is still sending, or waits. -/
def Begun (i timeout : Nat) (s : State) : Prop :=
  (∃ t, s.tasks[i]? = some t ∧ t.pc = .sending ∧ (t.kind = .node ∨ ∃ f, t.fut = some f) ∧ t.timeout = timeout) ∨ Far 1 (s.now + timeout) i s

theorem far_mono {r d d' i : Nat} {s : State} (h : Far r d i s) (hd : d ≤ d') : Far r d' i s := by
  obtain ⟨t, h1, h2, h3, h4⟩ := h
  exact ⟨t, h1, h2, h3.imp (Nat.le_trans · hd) id, h4⟩

theorem Begun.step {i timeout : Nat} {s : State} (h : Begun i timeout s) (o : Op) : Begun i timeout (Waiter.step s o) := by
  rcases h with ⟨t, ht, hp, hk, hto⟩ | h
  · by_cases hn : o.target = some i
    · have hlt := lt_of_getElem? ht
      have fin : ∀ (x : State) (t' : Task), x.tasks[i]? = some t' → t'.pc.rank = 4 → Begun i timeout x := fun x t' hx hr =>
        .inr ⟨t', hx, by omega, .inr hr, by omega, fun h => absurd hr h⟩
      cases o <;> simp only [Op.target, Option.some.injEq, reduceCtorEq] at hn <;> subst hn
      · rename_i b
        right
        refine far_mono (sendDone_far ht hp hk b) ?_
        rw [hto]
        exact Nat.add_le_add_right (now_step _ _) _
      · rename_i e
        refine fin _ { t with pc := .done (.error e) } ?_ rfl
        simp only [Waiter.step, ht, hp, ne_eq, not_true_eq_false, if_false]
        exact List.getElem?_set_self hlt
      · exact .inl ⟨t, by simp [Waiter.step, ht, hp], hp, hk, hto⟩
      · exact .inl ⟨t, by simp [Waiter.step, ht, hp], hp, hk, hto⟩
      · exact .inl ⟨t, by simp [Waiter.step, ht, hp], hp, hk, hto⟩
      · refine fin _ { t with pc := .done (.error .cancelled) } ?_ rfl
        simp only [Waiter.step, ht, hp, ne_eq, not_true_eq_false, if_false]
        exact List.getElem?_set_self hlt
    · exact .inl ⟨t, step_task_other s o i t ht hn, hp, hk, hto⟩
  · exact .inr (far_mono (h.step o) (Nat.add_le_add_right (now_step s o) _))

theorem Begun.run {i timeout : Nat} (ops : List Op) : ∀ {s : State}, Begun i timeout s → Begun i timeout (Waiter.run s ops) := by
  induction ops with
  | nil => intro s h; exact h
  | cons o ops ih => intro s h; exact ih (h.step o)

/-- **C101.** `sendAndReceive()` of the adapter and of a node ends in every continuation in which its send ends and, after that, its time passes and it has its turns. -/
theorem C101_sendAndReceive (ops1 ops2 ops3 : List Op) (k : Kind) (hk : k ≠ .plain) (hid timeout : Nat) (b : Bool) (h : TurnsFor (run init ops1).tasks.length timeout ops3) :
    let i := (run init ops1).tasks.length
    Over (run (step (run init ops1) (.call k hid timeout)) (ops2 ++ .sendDone i b :: ops3)) i := by
  intro i
  have hb : Begun i timeout (run (step (run init ops1) (.call k hid timeout)) ops2) := by
    refine Begun.run ops2 (.inl ⟨_, call_task (run init ops1) k hid timeout, ?_⟩)
    cases k with
    | plain => exact absurd rfl hk
    | adapter => exact ⟨rfl, .inr ⟨_, rfl⟩, rfl⟩
    | node => exact ⟨rfl, .inl rfl, rfl⟩
  rw [run_append, run_cons]
  have hf : Far 1 ((step (run (step (run init ops1) (.call k hid timeout)) ops2) (.sendDone i b)).now + timeout) i
      (step (run (step (run init ops1) (.call k hid timeout)) ops2) (.sendDone i b)) := by
    rcases hb with ⟨t, ht, hp, hk', hto⟩ | hb
    · refine far_mono (sendDone_far ht hp hk' b) ?_
      rw [hto]
      exact Nat.add_le_add_right (now_step _ _) _
    · exact far_mono (hb.step _) (Nat.add_le_add_right (now_step _ _) _)
  exact far_ends hf (Nat.le_refl _) ops3 h

/-- A call that nobody answers, while another one comes and goes. -/
example : TurnsFor 0 3 [.tick, .call .plain 0x2003 5, .tick, .message (.unknown 0x2003), .tick, .timer 0, .resume 1, .resume 0, .cancelDone 0] ∧
    (run (step init (.call .plain 0x2503 3)) [.tick, .call .plain 0x2003 5, .tick, .message (.unknown 0x2003), .tick, .timer 0, .resume 1, .resume 0, .cancelDone 0]).tasks.map (·.pc) =
      [.done (.error .timeout), .done (.ok (.unknown 0x2003))] := by
  unfold TurnsFor; decide +kernel

end Ends

/-! ## Sending -/

namespace Ends.Send
open Model.Conn

/-- The call of `send` has ended. -/
def Over (s : State) (i : Nat) : Prop := ∃ t r, s.sends[i]? = some t ∧ t.pc = .done r

/-- The turns of call `i` after `n` seconds. -/
def TurnsFor (i n : Nat) (ops : List Op) : Prop := List.Sublist (List.replicate n .tick ++ [.timer i, .resume i, .cancelled i]) ops

/-- **C101.** `send()` ends in every continuation in which its time passes and it has its turns, if no datagram arrives. -/
theorem C101_send (ops1 ops2 : List Op) (cmd : Msg) (src dst : Int) (timeout : Nat) (hp : ∀ o ∈ ops2, o.isPacket = false)
    (h : TurnsFor (run init ops1).sends.length timeout ops2) :
    Over (run (step (run init ops1) (.send cmd src dst timeout)) ops2) (run init ops1).sends.length := by
  refine far_ends (d := (run init ops1).now + timeout) ?_ ?_ ops2 hp h
  · generalize run init ops1 = s
    rcases send_cases s cmd src dst timeout with ⟨e, -, -, h⟩ | ⟨b, -, -, -, h⟩ | ⟨b, -, -, -, h⟩
    all_goals refine ⟨_, by simp only [step, h]; exact List.getElem?_concat_length, by simp [Pc.rank], ?_⟩
    · exact .inl rfl
    · exact .inl rfl
    · exact .inr ⟨Nat.le_refl _, rfl⟩
  · exact Nat.add_le_add_right (step_now _ _) _

/-- **C101.** Whatever datagrams have arrived so far, also responses that say the node has to be waited for: `send()` ends after its caller had a turn, `n` seconds have
passed and it had its turns again, if no more datagrams arrive. `n` is the time that is left, or the delay that was announced last. -/
theorem C101_queued (ops1 ops2 : List Op) (i : Nat) (t : Send) (ht : (run init ops1).sends[i]? = some t) (n : Nat) (hn : t.deadline ≤ (run init ops1).now + n)
    (hd : t.delay ≤ n) (hp : ∀ o ∈ ops2, o.isPacket = false)
    (h : List.Sublist (.resume i :: (List.replicate n .tick ++ [.timer i, .resume i, .cancelled i])) ops2) : Over (run (run init ops1) ops2) i := by
  obtain ⟨pre, post, rfl, hs, hr⟩ := sublist_first h
  obtain ⟨t', ht', -, -, h3, h4⟩ := kept ht pre (fun o ho => hp o (by simp [ho])) hr
  have hi : Inv (run (run init ops1) pre) := (inv_run ops1).run pre
  have hf := first_turn hi ht'
  rw [run_append, run_cons]
  refine far_ends hf ?_ post (fun o ho => hp o (by simp [ho])) hs
  have m1 := run_now pre (run init ops1)
  have m2 := step_now (run (run init ops1) pre) (.resume i)
  rw [h3, h4]
  omega

/-- A command for a sleeping node: the gateway announces a delay of two seconds, which are extended by a minute. -/
example : let ops1 := [Op.connect, .send (.known 0x2001 [("value", .num (.uint 1) 1)]) 0 0 3, .packet [0x23, 0x02, 0x30, 0x90, 1, 0, 0, 6, 1, 3, 0, 0, 2]]
    ((run init ops1).sends.map fun t => (t.pc, t.delay, t.deadline, t.status)) = [(.waiting, 62, 3, .queued)] ∧
    (run (run init ops1) (.resume 0 :: (List.replicate 62 .tick ++ [.timer 0, .resume 0, .cancelled 0]))).sends.map (·.pc) = [.done (.ok false)] := by
  decide +kernel

end Ends.Send
end Props

import Verif.Lemmas.AskTime
/-!
# Property theorems C122: no call gives up early
-/
namespace Props.Patience
open Model

/-! ## Waiting for a message -/

namespace Wait
open Model.Waiter

/-- **C122.** waitForMessage() and sendAndReceive() raise TimeoutError no earlier than their timeout after the call, whatever other calls for the same type do, unless the send itself raised
it (or, for a node, told that it was not acknowledged). -/
theorem C122_wait (ops ops' : List Op) (k : Kind) (hid timeout : Nat) :
    let s := run init ops
    let i := s.tasks.length
    let s' := run (step s (.call k hid timeout)) ops'
    (∃ t, s'.tasks[i]? = some t ∧ t.pc = .done (.error .timeout)) → .sendRaise i .timeout ∉ ops' → (k = .node → .sendDone i false ∉ ops') → s.now + timeout ≤ s'.now := by
  intro s i s' ⟨t, ht, hp⟩ h1 h2
  obtain ⟨t', ht', -, h⟩ := (GivesUp.call s hid timeout k).run ops' h1 h2
  have : some t = some t' := ht.symm.trans ht'
  cases this
  rw [hp] at h
  exact h rfl

/-- The time is not larger than that, and the exceptions are needed. (In the first schedule another call for the same type gives up earlier; the first one then ends with CancelledError,
C42, but not with TimeoutError.) -/
example : let ops' := [Op.call .plain 0x2503 1, .tick, .timer 1, .resume 1, .cancelDone 1]
    (run (step init (.call .plain 0x2503 3)) (ops' ++ [.tick, .timer 0, .resume 0])).tasks.map (·.pc) = [.done (.error .cancelled), .done (.error .timeout)] ∧
    (run (step init (.call .adapter 0x2503 3)) ([.sendDone 0 false] ++ List.replicate 3 .tick ++ [.timer 0, .resume 0, .cancelDone 0])).tasks.map (·.pc) = [.done (.error .timeout)] ∧
    (run (step init (.call .node 0x2503 3)) [.sendDone 0 false]).tasks.map (·.pc) = [.done (.error .timeout)] := by
  decide +kernel

end Wait

/-! ## Sending -/

namespace Send
open Model.Conn Spec

/-- The time `T` is not before the end of the patience of a call of `send` made in `s0` with number `q`: its timeout has passed, or the time since a response that asked to wait. -/
def Due (s0 : State) (timeout : Nat) (q : Nat) (s1 : State) (ops : List Op) (T : Nat) : Prop :=
  s0.now + timeout ≤ T ∨ ∃ pre b post d, ops = pre ++ .packet b :: post ∧ WaitingFor b q d ∧ (run s1 pre).now + patience d ≤ T

theorem Due.mono {s0 s1 : State} {timeout q T T' : Nat} {ops : List Op} (h : Due s0 timeout q s1 ops T) (op : Op) (hT : T ≤ T') : Due s0 timeout q s1 (ops ++ [op]) T' := by
  rcases h with h | ⟨pre, b, post, d, e, hw, h⟩
  · exact .inl (Nat.le_trans h hT)
  · exact .inr ⟨pre, b, post ++ [op], d, by simp [e], hw, Nat.le_trans h hT⟩

private def Inv (s0 : State) (timeout : Nat) (q i : Nat) (s1 : State) (ops : List Op) : Prop :=
  ∃ t, (run s1 ops).sends[i]? = some t ∧ t.seq = q ∧
    (t.status = .queued → ∃ pre b post d, ops = pre ++ .packet b :: post ∧ WaitingFor b q d ∧ t.delay.toNat = patience d) ∧
    match t.pc with
    | .waiting => Due s0 timeout q s1 ops t.deadline
    | .timedOut => Due s0 timeout q s1 ops (run s1 ops).now
    | .cancelling => Due s0 timeout q s1 ops (run s1 ops).now
    | .done r => r ≠ .ok true → r ≠ .error .cancelled → Due s0 timeout q s1 ops (run s1 ops).now

private theorem Inv.snoc {s0 s1 : State} {timeout q i : Nat} {ops : List Op} (hi : Conn.Inv (run s1 ops)) (h : Inv s0 timeout q i s1 ops) (op : Op) :
    Inv s0 timeout q i s1 (ops ++ [op]) := by
  obtain ⟨t, ht, hq, hs, hp⟩ := h
  obtain ⟨t', ht', tr⟩ := step_send (run s1 ops) op i t ht
  have hnow := step_now (run s1 ops) op
  rw [← run_snoc] at ht' hnow
  have grow : ∀ {D : Int}, (∃ pre b post d, ops = pre ++ Op.packet b :: post ∧ WaitingFor b q d ∧ D.toNat = patience d) →
      ∃ pre b post d, ops ++ [op] = pre ++ Op.packet b :: post ∧ WaitingFor b q d ∧ D.toNat = patience d := by
    rintro D ⟨pre, b, post, d, e, h⟩
    exact ⟨pre, b, post ++ [op], d, by simp [e], h⟩
  have hp' : match t.pc with
      | .waiting => Due s0 timeout q s1 (ops ++ [op]) t.deadline
      | .timedOut => Due s0 timeout q s1 (ops ++ [op]) (run s1 (ops ++ [op])).now
      | .cancelling => Due s0 timeout q s1 (ops ++ [op]) (run s1 (ops ++ [op])).now
      | .done r => r ≠ .ok true → r ≠ .error .cancelled → Due s0 timeout q s1 (ops ++ [op]) (run s1 (ops ++ [op])).now := by
    split <;> rename_i hpc <;> rw [hpc] at hp <;> simp only at hp
    · exact hp.mono op (Nat.le_refl _)
    · exact hp.mono op hnow
    · exact hp.mono op hnow
    · exact fun hr hr' => (hp hr hr').mono op hnow
  refine ⟨t', ht', ?_⟩
  cases tr with
  | same => exact ⟨hq, fun h => grow (hs h), hp'⟩
  | queued b v d p x h1 h2 h3 h4 h5 h6 h7 h8 =>
    obtain ⟨u, hu, hv, -⟩ := hi.own v i h8
    rw [ht] at hu; cases hu
    refine ⟨hq, fun _ => ⟨ops, b, [], d, rfl, ⟨p, x, h1, h2, h3, h4, by rw [h5, ← hv, hq], h6, h7⟩, ?_⟩, hp'⟩
    show ((if d < 0 then 120 else d) + 60 : Int).toNat = if d < 0 then 180 else d.toNat + 60
    split <;> omega
  | received b v p h1 h2 h3 h4 h5 h6 h7 => exact ⟨hq, (fun h => by cases h), hp'⟩
  | timer h1 h2 =>
    rw [h1] at hp
    exact ⟨hq, fun h => grow (hs h), hp.mono _ (Nat.le_trans h2 hnow)⟩
  | rearm h1 h2 h3 =>
    refine ⟨hq, fun h => grow (hs h), ?_⟩
    obtain ⟨pre, b, post, d, e, hw, hd⟩ := hs h3
    refine .inr ⟨pre, b, post ++ [.resume i], d, by rw [e]; simp, hw, ?_⟩
    rw [← hd]
    have : (run s1 pre).now ≤ (run s1 ops).now := by rw [e, run_append]; exact run_now _ _
    exact Nat.add_le_add_right this _
  | success h1 h2 h3 =>
    exact ⟨hq, fun h => grow (hs h), fun h => absurd rfl h⟩
  | giveUp h1 h2 =>
    rw [h2] at hp
    exact ⟨hq, fun h => grow (hs h), hp.mono _ hnow⟩
  | failed h1 h2 h3 =>
    rw [h1] at hp
    exact ⟨hq, fun h => grow (hs h), fun _ _ => hp.mono _ hnow⟩
  | raised h1 h2 =>
    rw [h1] at hp
    exact ⟨hq, fun h => grow (hs h), fun _ _ => hp.mono _ hnow⟩
  | killed h1 =>
    exact ⟨hq, fun h => grow (hs h), fun _ h => absurd rfl h⟩

private theorem inv_send {s s1 : State} (hi : Conn.Inv s1) {cmd : Msg} {src dst : Int} {timeout : Nat} (he : s1 = send s cmd src dst timeout) {t : Send}
    (ht : s1.sends[s.sends.length]? = some t) (hp : t.pc = .waiting) : Inv s timeout ((s.sends.length + 1) % 256) s.sends.length s1 [] := by
  refine ⟨t, ht, hi.seqs _ _ ht, ?_⟩
  rw [he] at ht
  rcases send_cases s cmd src dst timeout with ⟨e, -, -, h⟩ | ⟨b, -, -, -, h⟩ | ⟨b, -, -, -, h⟩ <;> rw [h, List.getElem?_concat_length] at ht <;> cases ht
  · cases hp
  · cases hp
  · exact ⟨(fun h => by cases h), .inl (Nat.le_refl _)⟩

/-- **C122.** A send() that waits ends other than with True no earlier than its timeout after the call, or, if the gateway asked to wait, no earlier than the announced delay and a minute
after that response (unless its caller is cancelled). -/
theorem C122_send (ops ops' : List Op) (cmd : Msg) (src dst : Int) (timeout : Nat) (r : Py Bool) :
    let s := run init ops
    let i := s.sends.length
    let s1 := step s (.send cmd src dst timeout)
    let s' := run s1 ops'
    (∃ t, s1.sends[i]? = some t ∧ t.pc = .waiting) → (∃ t, s'.sends[i]? = some t ∧ t.pc = .done r) → r ≠ .ok true → r ≠ .error .cancelled →
    s.now + timeout ≤ s'.now ∨ ∃ pre b post d, ops' = pre ++ .packet b :: post ∧ WaitingFor b ((i + 1) % 256) d ∧ (run s1 pre).now + patience d ≤ s'.now := by
  intro s i s1 s' ⟨t1, ht1, hp1⟩ ⟨t, ht, hp⟩ hr1 hr2
  have he : s1 = send s cmd src dst timeout := by simp only [s1, Conn.step]
  have hi1 : Conn.Inv s1 := (inv_run ops).step _
  clear_value s1
  have h0 : Inv s timeout ((i + 1) % 256) i s1 [] := inv_send hi1 he ht1 hp1
  have hall : ∀ ops, Inv s timeout ((i + 1) % 256) i s1 ops := fun ops => by
    refine snoc_ind (P := fun ops => Inv s timeout ((i + 1) % 256) i s1 ops) h0 (fun l a h => ?_) ops
    exact Inv.snoc (hi1.run l) h a
  obtain ⟨t', ht', -, -, h⟩ := hall ops'
  have e : some t = some t' := ht.symm.trans ht'
  cases e
  rw [hp] at h
  exact h hr1 hr2

/-- The times are not larger than that: without a response the call ends after its three seconds; asked to wait two seconds, it ends 62 seconds later, also if its own timeout is longer. -/
example : let s := run init [.connect]
    (run (step s (.send (.known 0x2502 []) 0 0 3)) (List.replicate 3 .tick ++ [.timer 0, .resume 0, .cancelled 0])).sends.map (·.pc) = [.done (.ok false)] ∧
    (run (step s (.send (.known 0x2502 []) 0 0 100)) ([.packet [0x23, 0x02, 0x30, 0x90, 1, 0, 0, 6, 1, 3, 0, 0, 2], .resume 0] ++ List.replicate 62 .tick ++
      [.timer 0, .resume 0, .cancelled 0])).sends.map (·.pc) = [.done (.ok false)] := by
  decide +kernel

end Send
end Props.Patience

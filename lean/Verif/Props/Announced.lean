import Verif.Props.MailNet
/-!
# C168: an entry that waits is announced

The mailbox tells a node every minute that an entry waits for it (mailbox.py:53-69). Nothing catches an exception in this task.
-/
namespace Props.Announced
open Model Model.MailNet
open Model.Mailbox (Src Ev Out Item Beat)
open Props.MailNet (storing)

/-- The full property: every stored entry has a heartbeat that goes on. -/
def C168_statement : Prop := ∀ (ops : List Op) (h : Int) (it : Item), it ∈ (run init ops).mail.items (some h) →
  ∃ (j : Nat) (b : Beat), (run init ops).mail.beats[j]? = some b ∧ b.item = it ∧ b.pc ≠ .ended

/-- The first command for node 3 is never acknowledged. The node pushes an entry. After 254 more commands, the number of the first one is taken again for a heartbeat. -/
def worn : List Op := storing ++ List.replicate 254 (.net (.gw (.link 0 (.send .pure 0 0 3)))) ++ [.wake 0, .net (.resume 2), .proceed (.beat 0)]

theorem worn_ends : ⟨0, 3, 5, [0x20, 0x01, 0xFF]⟩ ∈ (run init worn).mail.items (some 5) ∧ (run init worn).mail.beats = [⟨⟨0, 3, 5, [0x20, 0x01, 0xFF]⟩, 1, .ended⟩] := by
  decide +kernel

/-- It fails: the entry is stored, and its heartbeat has ended. -/
theorem C168_violated : ¬ C168_statement := by
  intro hs
  obtain ⟨h1, h2⟩ := worn_ends
  obtain ⟨j, b, hj, -, he⟩ := hs worn 5 _ h1
  rw [h2] at hj
  cases j with
  | zero => cases hj; exact he rfl
  | succ j => cases hj

/-- The acknowledgement of the first heartbeat arrives when its timer has just fired. -/
def late : List Op := storing ++ [.wake 0] ++ (([.tick, .tick, .tick, .timer 2, .packet [0x23, 0x02, 0x40, 0x10, 0x03, 0, 0], .resume 2, .cancelled 2] : List Conn.Op).map fun o => .net (.gw (.link 0 o))) ++
  [.net (.resume 2), .proceed (.beat 0)]

/-- One such acknowledgement is enough: the KeyError of the first heartbeat (C81) ends it, and the entry is still stored. -/
theorem C168_violated_late : ⟨0, 3, 5, [0x20, 0x01, 0xFF]⟩ ∈ (run init late).mail.items (some 5) ∧ (run init late).mail.beats = [⟨⟨0, 3, 5, [0x20, 0x01, 0xFF]⟩, 1, .ended⟩] ∧
    (run init late).net.calls.map (·.pc) = [.sending 0 0, .done (.ok true), .done (.error .key)] := by decide +kernel

/-- Sending a heartbeat for the entry raised. -/
def Raised (s : State) (it : Item) : Prop := ∃ op, op ≠ .pop ∧ ∃ d ∈ s.net.calls, d.node = it.node ∧
  (⟨it.node, false, op, it.handle, some it.data⟩ : Out).msg = .ok d.cmd ∧ ∃ e, d.pc = .done (.error e)

theorem Raised.net {s : State} {it : Item} (h : Raised s it) (o : ToNode.Op) : Raised { s with net := ToNode.step s.net o } it := by
  obtain ⟨op, h1, d, h2, h3, h4, e, h5⟩ := h
  obtain ⟨k, hk⟩ := List.getElem?_of_mem h2
  exact ⟨op, h1, d, List.mem_of_getElem? (net_done [o] _ hk h5), h3, h4, e, h5⟩

theorem mail_act (s : State) (o : Mailbox.Op) : (act s o).mail = Mailbox.step s.mail o := by
  unfold act issue
  split
  · split <;> rfl
  · rfl

theorem Raised.act {s : State} {it : Item} (h : Raised s it) (o : Mailbox.Op) : Raised (act s o) it := by
  unfold MailNet.act issue
  split
  · split
    · exact h.net _
    · exact h
  · exact h

/-- The mailbox does something that is not the end of a heartbeat with an exception. -/
theorem runs_act {os : List ToNode.Op} {s : State} (g : Good os s) (h : Lemmas.Mailbox.Runs (Raised s) s.mail) (o : Mailbox.Op)
    (ho : ∀ j b e, o = .beatEnds j (.error e) → s.mail.beats[j]? = some b → b.pc = .sending → Raised s b.item) :
    Lemmas.Mailbox.Runs (Raised (act s o)) (act s o).mail := by
  rw [mail_act]
  intro k it hit
  obtain ⟨j, b, h1, h2, h3⟩ := Lemmas.Mailbox.runs_step g.inv.1 g.inv.2 h o ho k it hit
  exact ⟨j, b, h1, h2, h3.imp_right fun h => h.act o⟩

theorem runs_step {os : List ToNode.Op} {s : State} (g : Good os s) (h : Lemmas.Mailbox.Runs (Raised s) s.mail) (o : Op) :
    Lemmas.Mailbox.Runs (Raised (step s o)) (step s o).mail := by
  cases o with
  | net o =>
    intro k it hit
    obtain ⟨j, b, h1, h2, h3⟩ := h k it hit
    exact ⟨j, b, h1, h2, h3.imp_right fun h => h.net o⟩
  | wake j => exact runs_act g h _ (fun _ _ _ e => by cases e)
  | proceed src =>
    cases src with
    | call i =>
      simp only [step]
      split
      · exact runs_act g h _ (fun _ _ _ e => by cases e)
      · exact h
    | beat j =>
      simp only [step]
      split
      · rename_i r hr
        refine runs_act g h _ (fun i b e he hb hp => ?_)
        cases he
        obtain ⟨k, d, hk, hd, hpc⟩ := result_some hr
        obtain ⟨k', o, h1, h2, op, h3, h4⟩ := g.sending j b hb hp
        cases Option.some.inj (hk.symm.trans h1)
        obtain ⟨d', cmd, h5, h6, h7, h8, -⟩ := h2.call
        rw [← g.net] at h5
        cases Option.some.inj (hd.symm.trans h5)
        subst h4
        exact ⟨op, h3, d, List.mem_of_getElem? hd, h7, by rw [h6, h8], e, hpc⟩
      · exact h
  | deliver i =>
    simp only [step]
    split
    · exact h
    · split
      · exact h
      · split
        · exact h
        · rename_i t _ _ m _
          exact runs_act (g.receive (s.received ++ [i])) h (.received t.node m) (fun _ _ _ e => by cases e)

/-- What does hold: every stored entry has a heartbeat that goes on, unless `sendToNode` raised for one of its heartbeats. -/
theorem C168_partial (ops : List Op) (h : Int) (it : Item) (hi : it ∈ (run init ops).mail.items (some h)) :
    ∃ (j : Nat) (b : Beat), (run init ops).mail.beats[j]? = some b ∧ b.item = it ∧ (b.pc ≠ .ended ∨ Raised (run init ops) it) := by
  suffices Lemmas.Mailbox.Runs (Raised (run init ops)) (run init ops).mail from this h it hi
  clear hi
  induction ops using Conn.snoc_ind with
  | nil => intro h it hit; simp [run, init, Mailbox.fresh, Mailbox.State.items] at hit
  | snoc ops o ih =>
    obtain ⟨os, g, -⟩ := whole ops
    rw [run_snoc]
    exact runs_step g ih o

/-- Nothing has raised for the entry of node 3. -/
example : (run init storing).mail.items (some 5) = [⟨0, 3, 5, [0x20, 0x01, 0xFF]⟩] ∧ ∀ d ∈ (run init storing).net.calls, ∀ e, d.pc ≠ .done (.error e) := by
  refine ⟨by decide +kernel, ?_⟩
  have : ∀ d ∈ (run init storing).net.calls, (match d.pc with | .done (.error _) => false | _ => true) = true := by decide +kernel
  intro d hd e he
  have := this d hd
  rw [he] at this
  cases this

theorem mail_step (s : State) (o : Op) : ∃ l, (step s o).mail = Mailbox.run s.mail l := by
  cases o with
  | net o => exact ⟨[], rfl⟩
  | wake j => exact ⟨[.tick j], mail_act s _⟩
  | proceed src =>
    cases src with
    | call i =>
      simp only [step]
      split
      · rename_i r _; exact ⟨[.sendEnds i r], mail_act s _⟩
      · exact ⟨[], rfl⟩
    | beat j =>
      simp only [step]
      split
      · rename_i r _; exact ⟨[.beatEnds j r], mail_act s _⟩
      · exact ⟨[], rfl⟩
  | deliver i =>
    simp only [step]
    split
    · exact ⟨[], rfl⟩
    · split
      · exact ⟨[], rfl⟩
      · split
        · exact ⟨[], rfl⟩
        · rename_i t _ _ m _; exact ⟨[.received t.node m], mail_act _ _⟩

theorem mail_run (ops : List Op) : ∀ (s : State), ∃ l, (run s ops).mail = Mailbox.run s.mail l := by
  induction ops with
  | nil => intro s; exact ⟨[], rfl⟩
  | cons o ops ih =>
    intro s
    obtain ⟨l, h1⟩ := mail_step s o
    obtain ⟨l', h2⟩ := ih (step s o)
    refine ⟨l ++ l', ?_⟩
    show (run (step s o) ops).mail = _
    rw [h2, h1]
    simp [Mailbox.run]

/-- A heartbeat that has ended stays silent, whatever happens: a node whose heartbeat raised is never told again by it that the entry waits. -/
theorem C168_silent (ops later : List Op) (j : Nat) (b : Beat) (hj : (run init ops).mail.beats[j]? = some b) (he : b.pc = .ended) :
    (run init (ops ++ later)).mail.beats[j]? = some b ∧ Spec.Mailbox.beatOuts j (run init (ops ++ later)).mail.log = Spec.Mailbox.beatOuts j (run init ops).mail.log := by
  obtain ⟨os, g, -⟩ := whole ops
  rw [MailNet.run_append]
  obtain ⟨l, hl⟩ := mail_run later (run init ops)
  rw [hl]
  exact Lemmas.Mailbox.ended_run _ g.inv.1 l j b hj he

/-- No second heartbeat is ever sent for the entry of `worn`. -/
example (later : List Op) : (Spec.Mailbox.beatOuts 0 (run init (worn ++ later)).mail.log).length = 1 := by
  have h := worn_ends.2
  rw [(C168_silent worn later 0 ⟨⟨0, 3, 5, [0x20, 0x01, 0xFF]⟩, 1, .ended⟩ (by rw [h]; rfl) rfl).2]
  decide +kernel

end Props.Announced

import Verif.Props.MailNet
import Verif.Lemmas.Silence
/-!
# C162: handlers of the mailbox can end from every state, also if nothing arrives any more
-/
namespace Props.MailEnds
open Model Model.MailNet Spec.Silence
open Model.Mailbox (Src Ev Out Item Beat Call)

theorem issue_mail (s : State) (mail : Mailbox.State) : (issue s mail).mail = mail := by
  unfold issue
  split
  · split <;> rfl
  · rfl

/-- A handler whose send has ended ends. -/
theorem sendEnds_done (s : Mailbox.State) (i : Nat) (r : Py Bool) (hi : i < s.calls.length) : ∃ c, (Mailbox.sendEnds s i r).calls[i]? = some c ∧ c.pc = .done := by
  unfold Mailbox.sendEnds
  rw [List.getElem?_eq_getElem hi]
  simp only
  split
  · rename_i h; exact ⟨_, List.getElem?_eq_getElem hi, h⟩
  · exact ⟨_, by simp [Mailbox.endCall, hi]; rfl, rfl⟩
  · split
    · exact ⟨_, by simp [Mailbox.endCall, hi]; rfl, rfl⟩
    · rename_i b
      cases b <;> exact ⟨_, by simp [Mailbox.endCall, hi]; rfl, rfl⟩
  · split
    · exact ⟨_, by simp [Mailbox.endCall, hi]; rfl, rfl⟩
    · rename_i b
      cases b <;> exact ⟨_, by simp [Mailbox.endCall, hi]; rfl, rfl⟩

/-- What is left of handlers and heartbeats. -/
structure Less (s t : Mailbox.State) : Prop where
  length : t.calls.length = s.calls.length
  calls : ∀ (i : Nat) (c : Call), s.calls[i]? = some c → c.pc = .done → t.calls[i]? = some c
  beats : ∀ (j : Nat) (b : Beat), t.beats[j]? = some b → b.pc = .sending → ∃ b', s.beats[j]? = some b' ∧ b'.pc = .sending
  same : (∀ (i : Nat) (c : Call), s.calls[i]? = some c → c.pc = .done) → t.beats.length = s.beats.length

theorem Less.refl (s : Mailbox.State) : Less s s := ⟨rfl, fun _ _ h _ => h, fun _ b h hp => ⟨b, h, hp⟩, fun _ => rfl⟩

theorem Less.trans {s t u : Mailbox.State} (h : Less s t) (k : Less t u) : Less s u where
  length := k.length.trans h.length
  calls i c hc hp := k.calls i c (h.calls i c hc hp) hp
  beats j b hb hp := by
    obtain ⟨b', h1, h2⟩ := k.beats j b hb hp
    exact h.beats j b' h1 h2
  same hd := by
    rw [k.same fun i c hc => ?_, h.same hd]
    have hi : i < s.calls.length := by rw [← h.length]; exact (List.getElem?_eq_some_iff.mp hc).1
    have e := List.getElem?_eq_getElem hi
    have := h.calls i _ e (hd i _ e)
    rw [hc] at this
    cases this
    exact hd i _ e

theorem less_endCall {s s' : Mailbox.State} {i : Nat} {c : Call} (hi : s.calls[i]? = some c) (hp : c.pc ≠ .done) (hc : s'.calls = s.calls)
    (hb : ∀ (j : Nat) (b : Beat), s'.beats[j]? = some b → b.pc = .sending → ∃ b', s.beats[j]? = some b' ∧ b'.pc = .sending) (r : Py (Option Bool)) : Less s (Mailbox.endCall s' i c r) where
  length := by simp [Mailbox.endCall, hc]
  calls k d hd hdp := by
    have hk : k ≠ i := by rintro rfl; rw [hi] at hd; cases hd; exact hp hdp
    simp [Mailbox.endCall, hc, hk.symm, hd]
  beats := hb
  same hd := absurd (hd i c hi) hp

theorem less_sendEnds (s : Mailbox.State) (i : Nat) (r : Py Bool) : Less s (Mailbox.sendEnds s i r) := by
  unfold Mailbox.sendEnds
  cases hc : s.calls[i]? with
  | none => exact .refl s
  | some c =>
    simp only
    split
    · exact .refl s
    · rename_i h; exact less_endCall hc (by simp [h]) rfl (fun j b h1 h2 => ⟨b, h1, h2⟩) _
    · rename_i h
      have hp : c.pc ≠ .done := by simp [h]
      split
      · exact less_endCall hc hp rfl (fun j b h1 h2 => ⟨b, h1, h2⟩) _
      · rename_i a
        cases a with
        | false => exact less_endCall hc hp rfl (fun j b h1 h2 => ⟨b, h1, h2⟩) _
        | true =>
          rw [if_pos rfl]
          refine less_endCall hc hp (by exact rfl) ?_ _
          intro j b h1 h2
          simp only [Mailbox.stop, List.getElem?_map, Option.map_eq_some_iff] at h1
          obtain ⟨b', h3, h4⟩ := h1
          split at h4
          · subst h4; cases h2
          · subst h4; exact ⟨_, h3, h2⟩
    · rename_i h
      have hp : c.pc ≠ .done := by simp [h]
      split
      · exact less_endCall hc hp rfl (fun j b h1 h2 => ⟨b, h1, h2⟩) _
      · rename_i a
        cases a with
        | false => exact less_endCall hc hp rfl (fun j b h1 h2 => ⟨b, h1, h2⟩) _
        | true =>
          rw [if_pos rfl]
          refine less_endCall hc hp (by exact rfl) ?_ _
          intro j b h1 h2
          rcases Nat.lt_or_ge j s.beats.length with hj | hj
          · rw [List.getElem?_append_left hj] at h1
            exact ⟨_, h1, h2⟩
          · rw [List.getElem?_append_right hj] at h1
            have := List.mem_of_getElem? h1
            rw [List.mem_singleton] at this
            subst this
            cases h2

theorem beatEnds_none (s : Mailbox.State) (j : Nat) (r : Py Bool) (b : Beat) (h : (Mailbox.step s (.beatEnds j r)).beats[j]? = some b) : b.pc ≠ .sending := by
  simp only [Mailbox.step] at h
  cases hb : s.beats[j]? with
  | none => rw [hb] at h; simp only at h; rw [hb] at h; cases h
  | some b' =>
    obtain ⟨item, n, pc⟩ := b'
    rw [hb] at h
    have hj := (List.getElem?_eq_some_iff.mp hb).1
    cases pc with
    | sleeping => simp only at h; rw [hb] at h; cases h; simp
    | ended => simp only at h; rw [hb] at h; cases h; simp
    | sending =>
      simp only [List.getElem?_set_self hj, Option.some.injEq] at h
      subst h
      cases r <;> simp

theorem less_beatEnds (s : Mailbox.State) (j : Nat) (r : Py Bool) : Less s (Mailbox.step s (.beatEnds j r)) := by
  have hl : (Mailbox.step s (.beatEnds j r)).beats.length = s.beats.length ∧ (Mailbox.step s (.beatEnds j r)).calls = s.calls ∧
      ∀ k, k ≠ j → (Mailbox.step s (.beatEnds j r)).beats[k]? = s.beats[k]? := by
    simp only [Mailbox.step]
    split
    · refine ⟨by simp, rfl, fun k hk => ?_⟩
      simp [List.getElem?_set_ne hk.symm]
    · exact ⟨rfl, rfl, fun _ _ => rfl⟩
  refine ⟨by rw [hl.2.1], fun i c h _ => by rw [hl.2.1]; exact h, fun k b h hp => ?_, fun _ => hl.1⟩
  have hk : k ≠ j := by rintro rfl; exact beatEnds_none s k r b h hp
  rw [hl.2.2 k hk] at h
  exact ⟨b, h, hp⟩

theorem less_turn {ok : Bool} (s : State) {o : Op} (h : mailTurn ok o = true) : Less s.mail (step s o).mail := by
  cases o with
  | deliver i => cases h
  | wake j => cases h
  | net o => exact .refl _
  | proceed src =>
    cases src with
    | call i =>
      simp only [step]
      split
      · rw [act, issue_mail]; exact less_sendEnds _ _ _
      · exact .refl _
    | beat j =>
      simp only [step]
      split
      · rw [act, issue_mail]; exact less_beatEnds _ _ _
      · exact .refl _

theorem less_turns {ok : Bool} (l : List Op) : ∀ (s : State), (∀ o ∈ l, mailTurn ok o = true) → Less s.mail (run s l).mail := by
  induction l with
  | nil => exact fun s _ => .refl _
  | cons o l ih => exact fun s h => (less_turn s (h o (by simp))).trans (ih (step s o) fun x hx => h x (by simp [hx]))

theorem net_turns (l : List ToNode.Op) : ∀ s : State, run s (l.map .net) = { s with net := ToNode.run s.net l } := by
  induction l with
  | nil => exact fun s => rfl
  | cons o l ih => exact fun s => ih _

theorem looks (os : List ToNode.Op) : Gateway.Looks (ToNode.run ToNode.init os).gw := by
  induction os using Conn.snoc_ind with
  | nil => intro i n t h; cases h
  | snoc l o ih => rw [run_net_append]; exact ToNode.looks_step ih o

/-- The latest send of a handler or heartbeat ends. -/
theorem result_ends (ok : Bool) {os : List ToNode.Op} {s : State} (h : Good os s) {src : Src} {k : Nat} {o : Out} (hk : latest s.sends src = some k) (hs : SentN os k o) :
    ∃ l : List ToNode.Op, (∀ o ∈ l, netTurn ok o = true) ∧ ∃ r, result (run s (l.map .net)) src = some r := by
  obtain ⟨d, cmd, h1, -⟩ := hs.call
  have hi : ToNode.Inv s.net := by rw [h.net]; exact ToNode.inv_run os
  have hl : Gateway.Looks s.net.gw := by rw [h.net]; exact looks os
  obtain ⟨l, h2, d', r, h3, h4⟩ := ToNode.call_ends ok hi hl (by rw [h.net]; exact h1)
  refine ⟨l, h2, r, ?_⟩
  rw [net_turns]
  simp [result, hk, h3, h4]

theorem turns_of {ok : Bool} {l : List ToNode.Op} (h : ∀ o ∈ l, netTurn ok o = true) (src : Src) : ∀ o ∈ l.map .net ++ [Op.proceed src], mailTurn ok o = true := by
  intro o ho
  rcases List.mem_append.mp ho with ho | ho
  · obtain ⟨x, hx, rfl⟩ := List.mem_map.mp ho
    exact h x hx
  · rw [List.mem_singleton] at ho
    subst ho
    rfl

/-- **C162**, a handler. Whatever happened before, handler `i` ends when only time passes, timers fire and coroutines have their turns. -/
theorem C162_ends (ok : Bool) (ops : List Op) (i : Nat) (hi : i < (run init ops).mail.calls.length) :
    ∃ l, (∀ o ∈ l, mailTurn ok o = true) ∧ ∃ c, (run init (ops ++ l)).mail.calls[i]? = some c ∧ c.pc = .done := by
  by_cases hp : (run init ops).mail.calls[i].pc = .done
  · exact ⟨[], by simp, _, by rw [List.append_nil]; exact List.getElem?_eq_getElem hi, hp⟩
  · obtain ⟨os, g, -⟩ := whole ops
    obtain ⟨k, o, hk, hs, -⟩ := g.waits i _ (List.getElem?_eq_getElem hi) hp
    obtain ⟨l, h1, r, h2⟩ := result_ends ok g hk hs
    refine ⟨l.map .net ++ [.proceed (.call i)], turns_of h1 _, ?_⟩
    rw [run_append, run_snoc]
    simp only [step, h2, act, issue_mail]
    rw [net_turns]
    exact sendEnds_done _ i r hi

/-- **C162**, a heartbeat. The send of heartbeat `j` ends too. -/
theorem C162_beat (ok : Bool) (ops : List Op) (j : Nat) :
    ∃ l, (∀ o ∈ l, mailTurn ok o = true) ∧ ∀ b, (run init (ops ++ l)).mail.beats[j]? = some b → b.pc ≠ .sending := by
  by_cases hp : ∃ b, (run init ops).mail.beats[j]? = some b ∧ b.pc = .sending
  · obtain ⟨b, hb, hp⟩ := hp
    obtain ⟨os, g, -⟩ := whole ops
    obtain ⟨k, o, hk, hs, -⟩ := g.sending j b hb hp
    obtain ⟨l, h1, r, h2⟩ := result_ends ok g hk hs
    refine ⟨l.map .net ++ [.proceed (.beat j)], turns_of h1 _, fun b' hb' => ?_⟩
    rw [run_append, run_snoc] at hb'
    simp only [step, h2, act, issue_mail] at hb'
    exact beatEnds_none _ j r b' hb'
  · exact ⟨[], by simp, fun b hb hs => hp ⟨b, by rw [List.append_nil] at hb; exact hb, hs⟩⟩

theorem handlers_end (ok : Bool) (ops : List Op) : ∀ n, n ≤ (run init ops).mail.calls.length →
    ∃ l, (∀ o ∈ l, mailTurn ok o = true) ∧ ∀ i < n, ∃ c, (run init (ops ++ l)).mail.calls[i]? = some c ∧ c.pc = .done := by
  intro n
  induction n with
  | zero => exact fun _ => ⟨[], by simp, by simp⟩
  | succ n ih =>
    intro hn
    obtain ⟨l, h1, h2⟩ := ih (by omega)
    have hl := (less_turns l (run init ops) h1).length
    rw [← run_append] at hl
    obtain ⟨l', h3, h4⟩ := C162_ends ok (ops ++ l) n (by omega)
    rw [List.append_assoc] at h4
    refine ⟨l ++ l', fun o ho => (List.mem_append.mp ho).elim (h1 o) (h3 o), fun i hi => ?_⟩
    rcases Nat.lt_succ_iff_lt_or_eq.mp hi with hi | rfl
    · obtain ⟨c, h5, h6⟩ := h2 i hi
      refine ⟨c, ?_, h6⟩
      rw [← List.append_assoc, run_append]
      exact (less_turns l' _ h3).calls i c h5 h6
    · exact h4

theorem beats_end (ok : Bool) (ops : List Op) : ∀ n : Nat, ∃ l, (∀ o ∈ l, mailTurn ok o = true) ∧ ∀ j < n, ∀ b : Beat, (run init (ops ++ l)).mail.beats[j]? = some b → b.pc ≠ .sending := by
  intro n
  induction n with
  | zero => exact ⟨[], by simp, by simp⟩
  | succ n ih =>
    obtain ⟨l, h1, h2⟩ := ih
    obtain ⟨l', h3, h4⟩ := C162_beat ok (ops ++ l) n
    rw [List.append_assoc] at h4
    refine ⟨l ++ l', fun o ho => (List.mem_append.mp ho).elim (h1 o) (h3 o), fun j hj => ?_⟩
    rcases Nat.lt_succ_iff_lt_or_eq.mp hj with hj | rfl
    · intro b hb hp
      rw [← List.append_assoc, run_append] at hb
      obtain ⟨b', h5, h6⟩ := (less_turns l' _ h3).beats j b hb hp
      exact h2 j hj b' h5 h6
    · exact h4

/-- **C162**, all of them. Every handler ends and every send of a heartbeat; no further message is handled. -/
theorem C162_all (ok : Bool) (ops : List Op) :
    ∃ l, (∀ o ∈ l, mailTurn ok o = true) ∧ (run init (ops ++ l)).mail.calls.length = (run init ops).mail.calls.length ∧
      (∀ c ∈ (run init (ops ++ l)).mail.calls, c.pc = .done) ∧ ∀ b ∈ (run init (ops ++ l)).mail.beats, b.pc ≠ .sending := by
  obtain ⟨l, h1, h2⟩ := handlers_end ok ops _ (Nat.le_refl _)
  have hl := less_turns l (run init ops) h1
  rw [← run_append] at hl
  have hd : ∀ (i : Nat) (c : Call), (run init (ops ++ l)).mail.calls[i]? = some c → c.pc = .done := by
    intro i c hc
    obtain ⟨c', h3, h4⟩ := h2 i (by rw [← hl.length]; exact (List.getElem?_eq_some_iff.mp hc).1)
    rw [hc] at h3
    cases h3
    exact h4
  obtain ⟨l', h3, h4⟩ := beats_end ok (ops ++ l) (run init (ops ++ l)).mail.beats.length
  have hl' := less_turns l' (run init (ops ++ l)) h3
  rw [← run_append] at hl'
  rw [List.append_assoc] at h4 hl'
  refine ⟨l ++ l', fun o ho => (List.mem_append.mp ho).elim (h1 o) (h3 o), hl'.length.trans hl.length, fun c hc => ?_, fun b hb => ?_⟩
  · obtain ⟨i, hi⟩ := List.getElem?_of_mem hc
    have hj : i < (run init (ops ++ l)).mail.calls.length := by rw [← hl'.length]; exact (List.getElem?_eq_some_iff.mp hi).1
    have e := List.getElem?_eq_getElem hj
    have := hl'.calls i _ e (hd i _ e)
    rw [hi] at this
    cases this
    exact hd i _ e
  · obtain ⟨j, hj⟩ := List.getElem?_of_mem hb
    exact h4 j (by rw [← hl'.same hd]; exact (List.getElem?_eq_some_iff.mp hj).1) b hj

/-! ## Example -/

/-- The handler of a push that sends and a heartbeat of another entry that sends: both end, when their datagrams are never acknowledged. -/
def busy : List Op := Props.MailNet.storing ++ [.wake 0, Props.MailNet.arrives 0 [0x69, 0x04, 0x00, 0x06, 0x25, 0x02], .deliver 1]

def silence : List Op :=
  List.replicate 3 (.net (.gw (.link 0 .tick))) ++
    ([.net (.gw (.link 0 (.timer 2))), .net (.gw (.link 0 (.resume 2))), .net (.gw (.link 0 (.cancelled 2))), .net (.resume 2), .proceed (.beat 0),
      .net (.gw (.link 0 (.timer 3))), .net (.gw (.link 0 (.resume 3))), .net (.gw (.link 0 (.cancelled 3))), .net (.resume 3), .proceed (.call 1)] : List Op)

example : (run init busy).mail.calls.map (·.pc == .done) = [true, false] ∧ (run init busy).mail.beats.map (·.pc) = [.sending] ∧
    (∀ o ∈ silence, mailTurn true o = true) ∧ (run init (busy ++ silence)).mail.calls.map (·.pc == .done) = [true, true] ∧
    (run init (busy ++ silence)).mail.beats.map (·.pc) = [.sleeping] := by decide +kernel

end Props.MailEnds

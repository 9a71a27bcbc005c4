import Verif.Model.Interview
import Verif.Lemmas.Conn
/-!
# Interviews (C58, C90)
-/
namespace Props.Interview
open Model Model.Interview Model.Listen

/-- The call has ended. -/
def Ended (c : Call) : Prop := ∃ how r, c.pc = .done how r

instance (c : Call) : Decidable (Ended c) :=
  match h : c.pc with
  | .done how r => isTrue ⟨how, r, h⟩
  | .version => isFalse (by rintro ⟨_, _, e⟩; rw [h] at e; cases e)
  | .body => isFalse (by rintro ⟨_, _, e⟩; rw [h] at e; cases e)

/-- The operation starts something new. -/
def Starts : Op → Bool
  | .interview | .requestVersion | .load _ _ => true
  | _ => false

/-- Calls do not overlap: nothing new is started before the previous call has ended. -/
def Sequential (s : State) (ops : List Op) : Prop :=
  match ops with
  | [] => True
  | o :: os => (Starts o = true → ∀ c ∈ s.calls, Ended c) ∧ Sequential (step s o) os

instance : (s : State) → (ops : List Op) → Decidable (Sequential s ops)
  | _, [] => isTrue trivial
  | s, o :: os =>
    have := instDecidableSequential (step s o) os
    inferInstanceAs (Decidable ((Starts o = true → ∀ c ∈ s.calls, Ended c) ∧ Sequential (step s o) os))

/-- The call that has just ended was an interview of a class whose version is known, which returned something else than False. -/
def Successful (c : Call) : Prop := ∃ r, c.pc = .done .finished (.ok r) ∧ r ≠ .bool false

/-- The operation ends call `i`. -/
def EndsCall (s : State) (o : Op) (i : Nat) (c : Call) : Prop :=
  (∀ b, s.calls[i]? = some b → ¬ Ended b) ∧ (step s o).calls[i]? = some c ∧ Ended c

/-- The full property: when a call of interview() ends, the class is marked exactly if the call was successful; while the interview runs it is not marked. -/
def C58_statement : Prop :=
  ∀ (id : Nat) (ops : List Op) (o : Op) (i : Nat) (c : Call), Sequential (fresh id) (ops ++ [o]) →
    EndsCall (run (fresh id) ops) o i c → c.only = false → ((run (fresh id) (ops ++ [o])).interviewed = true ↔ Successful c)

/-- If the version becomes 0 after a successful interview, a failed new interview leaves the mark. -/
theorem C58_violated : ¬ C58_statement := by
  intro h
  have := h 0x25 [.interview, .versionAnswer 0 (.ok 1), .bodyEnds 0 (.ok .none), .requestVersion, .versionAnswer 1 (.ok 0), .interview]
    (.versionAnswer 2 (.error .timeout)) 2 ⟨false, .done .noVersion (.ok .none)⟩ (by decide +kernel)
    ⟨by
      intro b hb
      have e : (run (fresh 0x25) [.interview, .versionAnswer 0 (.ok 1), .bodyEnds 0 (.ok .none), .requestVersion, .versionAnswer 1 (.ok 0), .interview]).calls[2]? =
        some ⟨false, .version⟩ := by decide +kernel
      rw [e] at hb; cases hb; decide, by decide +kernel, by decide⟩ rfl
  have e : (run (fresh 0x25) ([.interview, .versionAnswer 0 (.ok 1), .bodyEnds 0 (.ok .none), .requestVersion, .versionAnswer 1 (.ok 0), .interview] ++
    [.versionAnswer 2 (.error .timeout)])).interviewed = true := by decide +kernel
  obtain ⟨r, hr, -⟩ := this.1 e
  cases hr

/-- A history in which the version of the class is not lost: nothing is loaded and requestVersion() is not called by itself. -/
def Plain (ops : List Op) : Prop := ∀ o ∈ ops, o ≠ .requestVersion ∧ ∀ v b, o ≠ .load v b

private structure Inv (s : State) : Prop where
  marked : s.interviewed = true → s.version ≠ 0
  body : ∀ c ∈ s.calls, c.pc = .body → s.interviewed = false ∧ s.version ≠ 0
  version : ∀ c ∈ s.calls, c.pc = .version → s.version = 0
  one : ∀ i j : Nat, ∀ c d : Call, s.calls[i]? = some c → s.calls[j]? = some d → ¬ Ended c → ¬ Ended d → i = j
  only : ∀ c ∈ s.calls, c.only = false

private theorem not_ended_version {c : Call} (h : c.pc = .version) : ¬ Ended c := by rintro ⟨_, _, e⟩; rw [h] at e; cases e
private theorem not_ended_body {c : Call} (h : c.pc = .body) : ¬ Ended c := by rintro ⟨_, _, e⟩; rw [h] at e; cases e
private theorem ended_done (b : Bool) (how : How) (r : Py Ret) : Ended ⟨b, .done how r⟩ := ⟨how, r, rfl⟩

/-- Replacing the one active call. -/
private theorem inv_set {s : State} (h : Inv s) {i : Nat} {c : Call} (hc : s.calls[i]? = some c) (hn : ¬ Ended c) (p : Pc) (v : Nat) (m : Bool) (t : Nat)
    (hm : m = true → v ≠ 0) (hb : p = .body → m = false ∧ v ≠ 0) (hv : p = .version → v = 0) :
    Inv ⟨s.id, v, m, s.calls.set i { c with pc := p }, t⟩ := by
  have hlt : i < s.calls.length := by
    rcases Nat.lt_or_ge i s.calls.length with h | h
    · exact h
    · rw [List.getElem?_eq_none h] at hc; cases hc
  have hother : ∀ d ∈ s.calls.set i { c with pc := p }, d = { c with pc := p } ∨ (d ∈ s.calls ∧ Ended d) := by
    intro d hd
    obtain ⟨j, hj⟩ := List.getElem?_of_mem hd
    by_cases e : i = j
    · subst e; rw [List.getElem?_set_self hlt] at hj; cases hj; exact Or.inl rfl
    · rw [List.getElem?_set_ne e] at hj
      refine Or.inr ⟨List.mem_of_getElem? hj, ?_⟩
      rcases Decidable.em (Ended d) with he | he
      · exact he
      · exact absurd (h.one i j c d hc hj hn he) e
  refine ⟨hm, ?_, ?_, ?_, ?_⟩
  · intro d hd hp
    rcases hother d hd with rfl | ⟨-, he⟩
    · exact hb hp
    · exact absurd he (not_ended_body hp)
  · intro d hd hp
    rcases hother d hd with rfl | ⟨-, he⟩
    · exact hv hp
    · exact absurd he (not_ended_version hp)
  · intro j k d e hj hk nd ne
    have aux : ∀ (j : Nat) (d : Call), (s.calls.set i { c with pc := p })[j]? = some d → ¬ Ended d → i = j := by
      intro j d hj nd
      rcases Decidable.em (i = j) with e | e
      · exact e
      · rw [List.getElem?_set_ne e] at hj
        exact h.one i j c d hc hj hn nd
    rw [← aux j d hj nd, ← aux k e hk ne]
  · intro d hd
    rcases hother d hd with rfl | ⟨hm, -⟩
    · exact h.only c (List.mem_of_getElem? hc)
    · exact h.only d hm

/-- Adding a call when none is active. -/
private theorem inv_add {s : State} (h : Inv s) (hall : ∀ c ∈ s.calls, Ended c) (p : Pc) (m : Bool)
    (hm : m = true → s.version ≠ 0) (hb : p = .body → m = false ∧ s.version ≠ 0) (hv : p = .version → s.version = 0) :
    Inv { s with interviewed := m, calls := s.calls ++ [⟨false, p⟩] } := by
  refine ⟨hm, ?_, ?_, ?_, ?_⟩
  · intro d hd hp
    rcases List.mem_append.1 hd with hd | hd
    · exact absurd (hall d hd) (not_ended_body hp)
    · rw [List.mem_singleton] at hd; subst hd; exact hb hp
  · intro d hd hp
    rcases List.mem_append.1 hd with hd | hd
    · exact absurd (hall d hd) (not_ended_version hp)
    · rw [List.mem_singleton] at hd; subst hd; exact hv hp
  · intro j k d e hj hk nd ne
    have aux : ∀ (j : Nat) (d : Call), (s.calls ++ [⟨false, p⟩])[j]? = some d → ¬ Ended d → j = s.calls.length := by
      intro j d hj nd
      rcases Nat.lt_or_ge j s.calls.length with hlt | hge
      · rw [List.getElem?_append_left hlt] at hj
        exact absurd (hall d (List.mem_of_getElem? hj)) nd
      · rw [List.getElem?_append_right hge] at hj
        rcases Nat.eq_or_lt_of_le hge with e | e
        · exact e.symm
        · rw [List.getElem?_eq_none (by simp; omega)] at hj; cases hj
    rw [aux j d hj nd, aux k e hk ne]
  · intro d hd
    rcases List.mem_append.1 hd with hd | hd
    · exact h.only d hd
    · rw [List.mem_singleton] at hd; subst hd; rfl

private theorem inv_step {s : State} (h : Inv s) (o : Op) (hs : Starts o = true → ∀ c ∈ s.calls, Ended c) (ho : o ≠ .requestVersion) (ho' : ∀ v b, o ≠ .load v b) :
    Inv (step s o) := by
  cases o with
  | requestVersion => exact absurd rfl ho
  | load v b => exact absurd rfl (ho' v b)
  | interview =>
    have hall := hs rfl
    dsimp only [step]
    split
    · rename_i hv
      have hi : s.interviewed = false := by
        cases hm : s.interviewed with
        | false => rfl
        | true => exact absurd hv (h.marked hm)
      split
      · exact inv_add h hall _ s.interviewed h.marked (by intro e; cases e) (by intro e; cases e)
      · exact inv_add h hall _ s.interviewed h.marked (by intro e; cases e) (fun _ => hv)
    · rename_i hv
      exact inv_add h hall _ false (by intro e; cases e) (fun _ => ⟨rfl, hv⟩) (by intro e; cases e)
  | versionAnswer i r =>
    dsimp only [step]
    split
    · exact h
    · rename_i c hc
      split
      · rename_i hp
        have hn := not_ended_version hp
        have hver := h.version c (List.mem_of_getElem? hc) hp
        have hi : s.interviewed = false := by
          cases hm : s.interviewed with
          | false => rfl
          | true => exact absurd hver (h.marked hm)
        split
        · exact inv_set h hc hn _ s.version s.interviewed s.told h.marked (by split <;> (intro e; cases e)) (by split <;> (intro e; cases e))
        · exact inv_set h hc hn _ s.version s.interviewed s.told h.marked (by intro e; cases e) (by intro e; cases e)
        · rename_i v
          split
          · exact inv_set h hc hn _ v s.interviewed _ (by rw [hi]; intro e; cases e) (by intro e; cases e) (by intro e; cases e)
          · split
            · exact inv_set h hc hn _ v s.interviewed _ (by rw [hi]; intro e; cases e) (by intro e; cases e) (by intro e; cases e)
            · rename_i hv
              exact inv_set h hc hn _ v false _ (by intro e; cases e) (fun _ => ⟨rfl, hv⟩) (by intro e; cases e)
      · exact h
  | bodyEnds i r =>
    dsimp only [step]
    split
    · exact h
    · rename_i c hc
      split
      · rename_i hp
        have hn := not_ended_body hp
        split
        · exact inv_set h hc hn _ s.version s.interviewed s.told h.marked (by intro e; cases e) (by intro e; cases e)
        · exact inv_set h hc hn _ s.version s.interviewed s.told h.marked (by intro e; cases e) (by intro e; cases e)
        · rename_i v
          exact inv_set h hc hn _ s.version _ _ (fun _ => (h.body c (List.mem_of_getElem? hc) hp).2) (by intro e; cases e) (by intro e; cases e)
      · exact h

private theorem inv_run (s : State) (h : Inv s) (ops : List Op) (hs : Sequential s ops) (hp : Plain ops) : Inv (run s ops) := by
  induction ops generalizing s with
  | nil => exact h
  | cons o os ih =>
    have ho := hp o List.mem_cons_self
    exact ih (step s o) (inv_step h o hs.1 ho.1 ho.2) hs.2 (fun x hx => hp x (List.mem_cons_of_mem _ hx))

private theorem inv_fresh (id : Nat) : Inv (fresh id) := by
  refine ⟨?_, ?_, ?_, ?_, ?_⟩
  · intro e; cases e
  · intro c hc; cases hc
  · intro c hc; cases hc
  · intro i j c d hc; rw [fresh] at hc; simp at hc
  · intro c hc; cases hc

private theorem seq_append (s : State) (xs ys : List Op) (h : Sequential s (xs ++ ys)) : Sequential s xs ∧ Sequential (run s xs) ys := by
  induction xs generalizing s with
  | nil => exact ⟨trivial, h⟩
  | cons o os ih =>
    obtain ⟨a, b⟩ := ih (step s o) h.2
    exact ⟨⟨h.1, a⟩, b⟩

/-- C58: whenever an interview ends, the class is marked interviewed exactly if that interview was successful: the version was known, the interview did not time out
or raise, and it did not return False. For every history of calls that do not overlap. Missing: histories that load a state or request the version separately
(`C58_violated`), and overlapping interviews (`C90_violated`). -/
theorem C58_marked_partial (id : Nat) (ops : List Op) (o : Op) (i : Nat) (c : Call) (hs : Sequential (fresh id) (ops ++ [o])) (hp : Plain (ops ++ [o]))
    (he : EndsCall (run (fresh id) ops) o i c) : (run (fresh id) (ops ++ [o])).interviewed = true ↔ Successful c := by
  obtain ⟨s1, s2⟩ := seq_append _ _ _ hs
  have h := inv_run _ (inv_fresh id) ops s1 (fun x hx => hp x (List.mem_append_left _ hx))
  have ho := hp o (List.mem_append_right _ List.mem_cons_self)
  have hr : run (fresh id) (ops ++ [o]) = step (run (fresh id) ops) o := by simp [run]
  rw [hr]
  clear hr hp hs
  generalize run (fresh id) ops = s at *
  obtain ⟨hb, ha, hd⟩ := he
  have hnm : ∀ c : Call, c ∈ s.calls → c.pc = .version → s.interviewed = false := by
    intro c hc hp
    cases hm : s.interviewed with
    | false => rfl
    | true => exact absurd (h.version c hc hp) (h.marked hm)
  have hlt : ∀ {c : Call}, s.calls[i]? = some c → i < s.calls.length := by
    intro c hc
    rcases Nat.lt_or_ge i s.calls.length with h | h
    · exact h
    · rw [List.getElem?_eq_none h] at hc; cases hc
  have same : (step s o).calls[i]? = s.calls[i]? → False := fun e => hb c (e ▸ ha) hd
  have no : ∀ {b : Bool} {how : How} {r : Py Ret}, Call.mk b (.done how r) = c → (how ≠ .finished ∨ ∃ e, r = .error e) → ¬ Successful c := by
    rintro b how r e hh ⟨v, hv, -⟩
    rw [← e] at hv
    injection hv with h1 h2
    rcases hh with hh | ⟨e, he⟩
    · exact hh h1
    · rw [he] at h2; cases h2
  cases o with
  | requestVersion => exact absurd rfl ho.1
  | load v b => exact absurd rfl (ho.2 v b)
  | interview =>
    have hall := s2.1 rfl
    have hi : ∀ p m, (step s .interview) = { s with interviewed := m, calls := s.calls ++ [⟨false, p⟩] } → c = ⟨false, p⟩ := by
      intro p m e
      rw [e] at ha
      dsimp only at ha
      rcases Nat.lt_or_ge i s.calls.length with hl | hl
      · rw [List.getElem?_append_left hl] at ha
        exact absurd hd (hb c ha)
      · rw [List.getElem?_append_right hl] at ha
        exact List.mem_singleton.1 (List.mem_of_getElem? ha)
    by_cases hv : s.version = 0
    · have hm : s.interviewed = false := by
        cases hm : s.interviewed with
        | false => rfl
        | true => exact absurd hv (h.marked hm)
      by_cases h0 : s.id = 0
      · have e : step s .interview = { s with interviewed := s.interviewed, calls := s.calls ++ [⟨false, .done .noVersion (.ok .none)⟩] } := by simp [step, hv, h0]
        have hc := hi _ _ e
        rw [e]
        refine ⟨fun x => (by rw [hm] at x; cases x), fun x => absurd x (no hc.symm (Or.inl (by decide)))⟩
      · have e : step s .interview = { s with interviewed := s.interviewed, calls := s.calls ++ [⟨false, .version⟩] } := by simp [step, hv, h0]
        have hc := hi _ _ e
        exact absurd hd (by rw [hc]; decide)
    · have e : step s .interview = { s with interviewed := false, calls := s.calls ++ [⟨false, .body⟩] } := by simp [step, hv]
      have hc := hi _ _ e
      exact absurd hd (by rw [hc]; decide)
  | versionAnswer j r =>
    cases hj : s.calls[j]? with
    | none => exact (same (by simp [step, hj])).elim
    | some d =>
      by_cases hp : d.pc = .version
      · have hm := hnm d (List.mem_of_getElem? hj) hp
        have hon := h.only d (List.mem_of_getElem? hj)
        by_cases hij : j = i
        · subst hij
          have hl := hlt hj
          cases r with
          | error e =>
            have hx : (step s (.versionAnswer j (.error e))).interviewed = false ∧ ∃ b how r', Call.mk b (.done how r') = c ∧ how ≠ .finished := by
              cases e <;> simp only [step, hj, hp, hon, if_true, Bool.false_eq_true, if_false] at ha ⊢ <;>
                rw [List.getElem?_set_self hl] at ha <;> exact ⟨hm, _, _, _, Option.some.inj ha, by decide⟩
            obtain ⟨h1, b, how, r', h2, h3⟩ := hx
            exact ⟨fun x => (by rw [h1] at x; cases x), fun x => absurd x (no h2 (Or.inl h3))⟩
          | ok v =>
            by_cases hv : v = 0
            · have hx : (step s (.versionAnswer j (.ok v))).interviewed = false ∧ ∃ b how r', Call.mk b (.done how r') = c ∧ how ≠ .finished := by
                simp only [step, hj, hp, hon, hv, if_true, Bool.false_eq_true, if_false] at ha ⊢
                rw [List.getElem?_set_self hl] at ha
                exact ⟨hm, _, _, _, Option.some.inj ha, by decide⟩
              obtain ⟨h1, b, how, r', h2, h3⟩ := hx
              exact ⟨fun x => (by rw [h1] at x; cases x), fun x => absurd x (no h2 (Or.inl h3))⟩
            · simp only [step, hj, hp, hon, hv, if_true, Bool.false_eq_true, if_false] at ha
              rw [List.getElem?_set_self hl] at ha
              exact absurd hd (by rw [← Option.some.inj ha]; exact not_ended_body rfl)
        · refine (same ?_).elim
          simp only [step, hj, hp, if_true]
          split <;> (try split) <;> (try split) <;> exact List.getElem?_set_ne hij
      · exact (same (by simp [step, hj, hp])).elim
  | bodyEnds j r =>
    cases hj : s.calls[j]? with
    | none => exact (same (by simp [step, hj])).elim
    | some d =>
      by_cases hp : d.pc = .body
      · have hm := (h.body d (List.mem_of_getElem? hj) hp).1
        by_cases hij : j = i
        · subst hij
          have hl := hlt hj
          cases r with
          | error e =>
            have hx : (step s (.bodyEnds j (.error e))).interviewed = false ∧ ∃ b how r', Call.mk b (.done how r') = c ∧ how ≠ .finished := by
              cases e <;> simp only [step, hj, hp, if_true] at ha ⊢ <;>
                rw [List.getElem?_set_self hl] at ha <;> exact ⟨hm, _, _, _, Option.some.inj ha, by decide⟩
            obtain ⟨h1, b, how, r', h2, h3⟩ := hx
            exact ⟨fun x => (by rw [h1] at x; cases x), fun x => absurd x (no h2 (Or.inl h3))⟩
          | ok v =>
            simp only [step, hj, hp, if_true] at ha ⊢
            rw [List.getElem?_set_self hl] at ha
            rw [← Option.some.inj ha]
            constructor
            · intro x
              refine ⟨v, rfl, ?_⟩
              rintro rfl
              simp [hm] at x
            · rintro ⟨r, hr, hn⟩
              injection hr with _ h2
              injection h2 with h2
              rw [h2, if_neg hn]
        · refine (same ?_).elim
          simp only [step, hj, hp, if_true]
          split <;> exact List.getElem?_set_ne hij
      · exact (same (by simp [step, hj, hp])).elim

/-- C58: while an interview runs, the class is not marked. -/
theorem C58_during_partial (id : Nat) (ops : List Op) (hs : Sequential (fresh id) ops) (hp : Plain ops) (c : Call) (hc : c ∈ (run (fresh id) ops).calls)
    (hb : c.pc = .body) : (run (fresh id) ops).interviewed = false :=
  ((inv_run _ (inv_fresh id) ops hs hp).body c hc hb).1

/-- A successful interview, one that times out and one whose version is not answered meet the hypotheses. -/
example : Sequential (fresh 0x25) ([.interview, .versionAnswer 0 (.ok 1), .bodyEnds 0 (.ok .none), .interview] ++ [.bodyEnds 1 (.error .timeout)]) ∧
    Plain ([.interview, .versionAnswer 0 (.ok 1), .bodyEnds 0 (.ok .none), .interview] ++ [.bodyEnds 1 (.error .timeout)]) ∧
    (run (fresh 0x25) [.interview, .versionAnswer 0 (.ok 1), .bodyEnds 0 (.ok .none)]).interviewed = true ∧
    (run (fresh 0x25) [.interview, .versionAnswer 0 (.ok 1), .bodyEnds 0 (.ok .none), .interview]).calls[1]? = some ⟨false, .body⟩ ∧
    (run (fresh 0x25) [.interview, .versionAnswer 0 (.ok 1), .bodyEnds 0 (.ok .none), .interview, .bodyEnds 1 (.error .timeout)]).calls[1]? =
      some ⟨false, .done .timedOut (.ok (.bool false))⟩ := by
  refine ⟨by decide +kernel, ?_, by decide +kernel, by decide +kernel, by decide +kernel⟩
  intro o ho
  simp at ho
  rcases ho with rfl | rfl | rfl | rfl | rfl <;> exact ⟨by simp, by simp⟩

/-- C90: while an interview runs the class is not marked, however calls overlap. -/
def C90_statement : Prop :=
  ∀ (id : Nat) (ops : List Op), Plain ops → ∀ c ∈ (run (fresh id) ops).calls, c.pc = .body → (run (fresh id) ops).interviewed = false

/-- Two interviews of the same class overlap: the first to end marks the class while the second still runs. -/
theorem C90_violated : ¬ C90_statement := by
  intro h
  have := h 0x25 [.interview, .interview, .versionAnswer 0 (.ok 1), .versionAnswer 1 (.ok 1), .bodyEnds 0 (.ok .none)]
    (by intro o ho; simp at ho; rcases ho with rfl | rfl | rfl | rfl | rfl <;> exact ⟨by simp, by simp⟩)
    ⟨false, .body⟩ (by decide +kernel) rfl
  revert this
  decide +kernel

/-- C90, the part that holds for any overlap, loads included: an interview that starts clears the mark, and only an interview that ends without False (or a load) sets it. -/
theorem C90_mark_partial (s : State) (o : Op) (hb : s.interviewed = false) (ha : (step s o).interviewed = true) :
    (∃ v, o = .load v true) ∨
      ∃ (i : Nat) (c : Call) (r : Ret), s.calls[i]? = some c ∧ c.pc = .body ∧ r ≠ .bool false ∧ o = .bodyEnds i (.ok r) := by
  cases o with
  | interview => revert ha; simp only [step]; split <;> (try split) <;> simp [hb]
  | requestVersion => revert ha; simp only [step]; split <;> simp [hb]
  | versionAnswer i r =>
    revert ha; simp only [step]
    split <;> (try split) <;> (try split) <;> (try split) <;> (try split) <;> simp [hb]
  | bodyEnds i r =>
    cases hi : s.calls[i]? with
    | none => simp [step, hi, hb] at ha
    | some c =>
      by_cases hp : c.pc = .body
      · cases r with
        | error e => cases e <;> simp [step, hi, hp, hb] at ha
        | ok v =>
          simp [step, hi, hp, hb] at ha
          exact Or.inr ⟨i, c, v, hi, hp, ha, rfl⟩
      · simp [step, hi, hp, hb] at ha
  | load v b =>
    simp [step] at ha
    exact Or.inl ⟨v, by rw [ha]⟩

/-- C90: the start of an interview clears the mark, whatever else is running. -/
theorem C90_cleared_partial (s : State) (o : Op) (i : Nat) (c : Call) (hn : ∀ b, s.calls[i]? = some b → b.pc ≠ .body)
    (hc : (step s o).calls[i]? = some c) (hb : c.pc = .body) : (step s o).interviewed = false := by
  have same : (step s o).calls[i]? = s.calls[i]? → False := fun e => hn c (e ▸ hc) hb
  have hlt : ∀ {j : Nat} {c : Call}, s.calls[j]? = some c → j < s.calls.length := by
    intro j c hc
    rcases Nat.lt_or_ge j s.calls.length with h | h
    · exact h
    · rw [List.getElem?_eq_none h] at hc; cases hc
  have app : ∀ x : Call, (s.calls ++ [x])[i]? = some c → x.pc ≠ .body → False := by
    intro x hx hp
    rcases Nat.lt_or_ge i s.calls.length with hl | hl
    · rw [List.getElem?_append_left hl] at hx
      exact hn c hx hb
    · rw [List.getElem?_append_right hl] at hx
      have := List.mem_singleton.1 (List.mem_of_getElem? hx)
      exact hp (this ▸ hb)
  have set : ∀ (j : Nat) (d x : Call), s.calls[j]? = some d → (s.calls.set j x)[i]? = some c → x.pc ≠ .body → False := by
    intro j d x hd hx hp
    by_cases e : j = i
    · subst e
      rw [List.getElem?_set_self (hlt hd)] at hx
      injection hx with hx
      exact hp (hx ▸ hb)
    · rw [List.getElem?_set_ne e] at hx
      exact hn c hx hb
  cases o with
  | interview =>
    revert hc; simp only [step]; split
    · split
      · intro hc; exact (app _ hc (by simp)).elim
      · intro hc; exact (app _ hc (by simp)).elim
    · intro _; rfl
  | requestVersion =>
    revert hc; simp only [step]; split
    · intro hc; exact (app _ hc (by simp)).elim
    · intro hc; exact (app _ hc (by simp)).elim
  | versionAnswer j r =>
    cases hj : s.calls[j]? with
    | none => exact (same (by simp [step, hj])).elim
    | some d =>
      by_cases hp : d.pc = .version
      · revert hc
        simp only [step, hj, hp, if_true]
        split
        · intro hc; exact (set j d _ hj hc (by split <;> simp)).elim
        · intro hc; exact (set j d _ hj hc (by simp)).elim
        · split
          · intro hc; exact (set j d _ hj hc (by simp)).elim
          · split
            · intro hc; exact (set j d _ hj hc (by simp)).elim
            · intro _; rfl
      · exact (same (by simp [step, hj, hp])).elim
  | bodyEnds j r =>
    cases hj : s.calls[j]? with
    | none => exact (same (by simp [step, hj])).elim
    | some d =>
      by_cases hp : d.pc = .body
      · revert hc
        simp only [step, hj, hp, if_true]
        split
        · intro hc; exact (set j d _ hj hc (by simp)).elim
        · intro hc; exact (set j d _ hj hc (by simp)).elim
        · intro hc; exact (set j d _ hj hc (by simp)).elim
      · exact (same (by simp [step, hj, hp])).elim
  | load v b => exact (same rfl).elim

/-- An interview starts while the class is marked. -/
example : let s := run (fresh 0x25) [.interview, .versionAnswer 0 (.ok 1), .bodyEnds 0 (.ok .none)]
    s.interviewed = true ∧ (step s .interview).calls[1]? = some ⟨false, .body⟩ := by decide +kernel

/-- What requestVersion() gives its caller. It is True exactly for a number other than 0. -/
def Gives (c : Call) (n : Nat) : Prop := ∃ r, c.pc = .done (.version n) (.ok r) ∧ r.truthy = decide (n ≠ 0)

/-- **C106**, the result, for every history. A call of requestVersion() returns the number of the report, which becomes the version of the class. If no report comes in time it
returns 0 and the version stays; another exception is passed on. For the class with number 0 it returns 0 at once and asks nothing. -/
theorem C106_returns_partial (id : Nat) (ops : List Op) :
    let s := run (fresh id) ops
    (∀ i, s.calls[i]? = some ⟨true, .version⟩ →
      (∀ n, ∃ c, (step s (.versionAnswer i (.ok n))).calls[i]? = some c ∧ Gives c n ∧ (step s (.versionAnswer i (.ok n))).version = n) ∧
      (∃ c, (step s (.versionAnswer i (.error .timeout))).calls[i]? = some c ∧ Gives c 0 ∧ (step s (.versionAnswer i (.error .timeout))).version = s.version) ∧
      ∀ e, e ≠ .timeout → (step s (.versionAnswer i (.error e))).calls[i]? = some ⟨true, .done .raised (.error e)⟩ ∧ (step s (.versionAnswer i (.error e))).version = s.version) ∧
    (s.id ≠ 0 → (step s .requestVersion).calls[s.calls.length]? = some ⟨true, .version⟩) ∧
    (s.id = 0 → ∃ c, (step s .requestVersion).calls[s.calls.length]? = some c ∧ Gives c 0) := by
  intro s
  refine ⟨fun i hi => ?_, fun h => by simp [step, h], fun h => ⟨_, by simp only [step, h, if_true]; exact List.getElem?_concat_length, _, rfl, rfl⟩⟩
  have hlt := (List.getElem?_eq_some_iff.mp hi).1
  refine ⟨fun n => ?_, ?_, fun e he => ?_⟩
  · refine ⟨_, by simp only [step, hi, if_true]; exact List.getElem?_set_self hlt, ⟨_, rfl, by simp [verRet, Ret.truthy]⟩, by simp only [step, hi, if_true]⟩
  · refine ⟨_, by simp only [step, hi, if_true]; exact List.getElem?_set_self hlt, ⟨_, rfl, by simp [verRet, Ret.truthy]⟩, by simp only [step, hi, if_true]⟩
  · cases e <;> first | exact absurd rfl he | exact ⟨by simp only [step, hi, if_true]; exact List.getElem?_set_self hlt, by simp only [step, hi, if_true]⟩

/-- The version of a class is asked for and reported. -/
example : let s := run (fresh 0x25) [.requestVersion]
    s.calls[0]? = some ⟨true, .version⟩ ∧ (step s (.versionAnswer 0 (.ok 2))).calls.map (·.pc) = [.done (.version 2) (.ok (.other true))] := by decide +kernel

end Props.Interview

import Verif.Lemmas.NodeInterview
import Verif.Spec.Truthful
import Verif.Props.NodeInterview
/-!
# Property theorems C146: a node that answers is interviewed completely
-/
namespace Props.Truthful
open Model Model.Listen Model.NodeInterview

/-- What the calls of a class can be while the node answers. -/
private def Fine (id v w : Nat) (x : Interview.Call) : Prop :=
  match x.pc with
  | .version => id ≠ 0
  | .body => id ≠ 0 ∧ w = v ∧ x.only = false
  | .done .noVersion r => id = 0 ∧ r = .ok .none
  | .done .finished r => id ≠ 0 ∧ w = v ∧ x.only = false ∧ ∃ y, r = .ok y
  | .done (.version _) _ => x.only = true
  | .done _ _ => False

private structure CInv (id v : Nat) (c : Interview.State) : Prop where
  cid : c.id = id
  ver : c.version = 0 ∨ (id ≠ 0 ∧ c.version = v)
  fine : ∀ x ∈ c.calls, Fine id v c.version x
  mark : (∃ x ∈ c.calls, ∃ r, x.pc = .done .finished r) → c.interviewed = true ∨ ∃ x ∈ c.calls, x.pc = .body

private theorem fine_mono {id v w : Nat} {x : Interview.Call} (h : Fine id v w x) : Fine id v v x := by
  obtain ⟨o, p⟩ := x
  cases p with
  | version => exact h
  | body => exact ⟨h.1, rfl, h.2.2⟩
  | done how r =>
    cases how with
    | finished => exact ⟨h.1, rfl, h.2.2⟩
    | _ => exact h

private theorem cinv_fresh (id v : Nat) : CInv id v (Interview.fresh id) :=
  ⟨rfl, .inl rfl, fun x h => by simp [Interview.fresh] at h, fun ⟨x, h, _⟩ => by simp [Interview.fresh] at h⟩

/-- One call is new or has changed. -/
private theorem cinv_put {id v : Nat} {c c' : Interview.State} (h : CInv id v c) (y : Interview.Call) (h1 : c'.id = c.id)
    (h2 : c'.version = c.version ∨ (id ≠ 0 ∧ c'.version = v)) (h3 : ∀ x ∈ c'.calls, x ∈ c.calls ∨ x = y) (h4 : Fine id v c'.version y)
    (h5 : c'.interviewed = true ∨ (y ∈ c'.calls ∧ y.pc = .body) ∨
      ((∀ r, y.pc ≠ .done .finished r) ∧ c'.interviewed = c.interviewed ∧ ∀ x ∈ c.calls, x.pc = .body → x ∈ c'.calls)) : CInv id v c' := by
  refine ⟨h1.trans h.cid, ?_, fun x hx => ?_, fun hx => ?_⟩
  · rcases h2 with e | e
    · rw [e]; exact h.ver
    · exact .inr e
  · rcases h3 x hx with hx | rfl
    · rcases h2 with e | e
      · rw [e]; exact h.fine x hx
      · rw [e.2]; exact fine_mono (h.fine x hx)
    · exact h4
  · rcases h5 with e | ⟨a, b⟩ | ⟨a, b, d⟩
    · exact .inl e
    · exact .inr ⟨y, a, b⟩
    · obtain ⟨x, hx, r, hr⟩ := hx
      rcases h3 x hx with hx | rfl
      · rcases h.mark ⟨x, hx, r, hr⟩ with e | ⟨z, hz, ez⟩
        · exact .inl (b.trans e)
        · exact .inr ⟨z, d z hz ez, ez⟩
      · exact absurd hr (a r)

private theorem pushed {l : List Interview.Call} {y : Interview.Call} : ∀ x ∈ l ++ [y], x ∈ l ∨ x = y := by
  intro x hx
  rcases List.mem_append.mp hx with h | h
  · exact .inl h
  · exact .inr (List.mem_singleton.mp h)

/-- A call other than the one that is changed stays. -/
private theorem kept {l : List Interview.Call} {i : Nat} {d y : Interview.Call} (hd : l[i]? = some d) (hp : d.pc ≠ .body) :
    ∀ x ∈ l, x.pc = .body → x ∈ l.set i y := by
  intro x hx hb
  obtain ⟨k, hk, rfl⟩ := List.getElem_of_mem hx
  by_cases e : i = k
  · subst e
    rw [List.getElem?_eq_getElem hk] at hd
    cases hd
    exact absurd hb hp
  · have : (l.set i y)[k]? = some l[k] := by rw [List.getElem?_set_ne e]; exact List.getElem?_eq_getElem hk
    exact List.mem_of_getElem? this

private theorem placed {l : List Interview.Call} {i : Nat} {d y : Interview.Call} (hd : l[i]? = some d) : y ∈ l.set i y :=
  List.mem_set (List.getElem?_eq_some_iff.mp hd).1 _

private theorem cinv_step {id v : Nat} {c : Interview.State} (hv : 0 < v) (h : CInv id v c) {o : Interview.Op} (ho : Truth v o) : CInv id v (Interview.step c o) := by
  cases o with
  | load _ _ => exact ho.elim
  | interview =>
    simp only [Interview.step]
    split
    · split
      · rename_i hi
        exact cinv_put h _ rfl (.inl rfl) pushed (show id = 0 ∧ _ from ⟨h.cid ▸ hi, rfl⟩) (.inr (.inr ⟨by simp, rfl, fun x hx _ => List.mem_append_left _ hx⟩))
      · rename_i hi
        exact cinv_put h _ rfl (.inl rfl) pushed (show id ≠ 0 from h.cid ▸ hi) (.inr (.inr ⟨by simp, rfl, fun x hx _ => List.mem_append_left _ hx⟩))
    · rename_i hz
      obtain ⟨a, b⟩ := h.ver.resolve_left hz
      exact cinv_put h _ rfl (.inl rfl) pushed ⟨a, b, rfl⟩ (.inr (.inl ⟨List.mem_append_right _ (List.mem_singleton.mpr rfl), rfl⟩))
  | requestVersion =>
    simp only [Interview.step]
    split
    · exact cinv_put h _ rfl (.inl rfl) pushed (show true = true from rfl) (.inr (.inr ⟨by simp, rfl, fun x hx _ => List.mem_append_left _ hx⟩))
    · rename_i hi
      exact cinv_put h _ rfl (.inl rfl) pushed (show id ≠ 0 from h.cid ▸ hi) (.inr (.inr ⟨by simp, rfl, fun x hx _ => List.mem_append_left _ hx⟩))
  | versionAnswer i r =>
    have ho : r = .ok v := ho
    subst ho
    simp only [Interview.step]
    split
    · exact h
    · rename_i d hd
      split
      · rename_i hp
        have hi : id ≠ 0 := by
          have := h.fine d (List.mem_of_getElem? hd)
          simpa only [Fine, hp] using this
        have hb : d.pc ≠ .body := by rw [hp]; simp
        split
        · rename_i hon
          exact cinv_put h _ rfl (.inr ⟨hi, rfl⟩) (fun x hx => List.mem_or_eq_of_mem_set hx) (show d.only = true from hon)
            (.inr (.inr ⟨by simp, rfl, kept hd hb⟩))
        · rename_i hon
          split
          · omega
          · exact cinv_put h _ rfl (.inr ⟨hi, rfl⟩) (fun x hx => List.mem_or_eq_of_mem_set hx) ⟨hi, rfl, by simpa using hon⟩
              (.inr (.inl ⟨placed hd, rfl⟩))
      · exact h
  | bodyEnds i r =>
    obtain ⟨x, rfl, hx⟩ := ho
    simp only [Interview.step]
    split
    · exact h
    · rename_i d hd
      split
      · rename_i hp
        have hi : id ≠ 0 ∧ c.version = v ∧ d.only = false := by
          have := h.fine d (List.mem_of_getElem? hd)
          simpa only [Fine, hp] using this
        exact cinv_put h _ rfl (.inl rfl) (fun x hx => List.mem_or_eq_of_mem_set hx) ⟨hi.1, hi.2.1, hi.2.2, x, rfl⟩ (.inl rfl)
      · exact h

/-- All classes of the node. -/
private def NInv (ids : List Nat) (truth : Nat → Nat) (s : State) : Prop :=
  ∀ (i : Nat) (c : Interview.State), s.classes[i]? = some c → ∃ id, ids[i]? = some id ∧ CInv id (truth id) c

private theorem ninv_set {ids : List Nat} {truth : Nat → Nat} {s s' : State} (h : NInv ids truth s) (ht : ∀ id ∈ ids, 0 < truth id) {i : Nat} {c : Interview.State}
    (hc : s.classes[i]? = some c) {o : Interview.Op} (ho : ∀ id, ids[i]? = some id → Truth (truth id) o) (he : s'.classes = s.classes.set i (Interview.step c o)) :
    NInv ids truth s' := by
  intro k d hd
  rw [he] at hd
  by_cases e : i = k
  · subst e
    rw [List.getElem?_set_self (List.getElem?_eq_some_iff.mp hc).1] at hd
    cases hd
    obtain ⟨id, h1, h2⟩ := h i c hc
    exact ⟨id, h1, cinv_step (ht id (List.mem_of_getElem? h1)) h2 (ho id h1)⟩
  · rw [List.getElem?_set_ne e] at hd
    exact h k d hd

private theorem ninv_begin {ids : List Nat} {truth : Nat → Nat} {s : State} (h : NInv ids truth s) (ht : ∀ id ∈ ids, 0 < truth id) (n i : Nat) :
    NInv ids truth (begin s n i) := by
  unfold NodeInterview.begin
  split
  · exact h
  · rename_i c hc
    exact ninv_set h ht hc (o := .interview) (fun _ _ => trivial) rfl

private theorem result_ok {id v : Nat} {c : Interview.State} (h : CInv id v c) {j : Nat} {x : Interview.Call} (hx : c.calls[j]? = some x) (ho : x.only = false)
    {how : Interview.How} {r : Py Ret} (hr : x.pc = .done how r) : (how = .noVersion ∧ id = 0 ∧ r = .ok .none) ∨ (how = .finished ∧ id ≠ 0 ∧ c.version = v ∧ ∃ y, r = .ok y) := by
  have hf := h.fine x (List.mem_of_getElem? hx)
  simp only [Fine, hr] at hf
  cases how with
  | noVersion => exact .inl ⟨rfl, hf⟩
  | finished => exact .inr ⟨rfl, hf.1, hf.2.1, hf.2.2.2⟩
  | version n => exact absurd (show x.only = true from hf) (by simp [ho])
  | timedOut => exact hf.elim
  | raised => exact hf.elim

private theorem ninv_step {ids : List Nat} {truth : Nat → Nat} {s : State} (h : NInv ids truth s) (ht : ∀ id ∈ ids, 0 < truth id) {o : Op} (ho : Answers ids truth o) :
    NInv ids truth (step s o) := by
  cases o with
  | enter => exact h
  | leave => exact h
  | interview => exact ninv_begin (s := { s with calls := s.calls ++ [.done (.ok ())] }) h ht _ _
  | cls i o =>
    simp only [step]
    split
    · exact h
    · rename_i c hc
      split <;> exact ninv_set h ht hc ho rfl
  | resume n =>
    simp only [step]
    split
    · split
      · exact h
      · split
        · exact h
        · split
          · refine ninv_begin ?_ ht _ _; exact h
          · refine ninv_begin ?_ ht _ _; exact h
          · exact h
    · exact h

private theorem ninv_run {ids : List Nat} {truth : Nat → Nat} (ht : ∀ id ∈ ids, 0 < truth id) (ops : List Op) (ho : ∀ o ∈ ops, Answers ids truth o) :
    NInv ids truth (run (fresh ids) ops) := by
  induction ops using Conn.snoc_ind with
  | nil =>
    intro i c hc
    simp only [run, List.foldl_nil, fresh, List.getElem?_map, Option.map_eq_some_iff] at hc
    obtain ⟨id, h1, rfl⟩ := hc
    exact ⟨id, h1, cinv_fresh id _⟩
  | snoc ops o ih =>
    rw [run_snoc]
    exact ninv_step (ih fun o h => ho o (List.mem_append_left _ h)) ht (ho o (List.mem_append_right _ (List.mem_singleton.mpr rfl)))

/-- **C146.** When `Node.interview()` of a node that answers returns, every class of the node is known: it has the version the node has, and it is marked as interviewed
unless it is being interviewed again. For every schedule, also if other interviews of the node and of its classes overlap. -/
theorem C146_known (ids : List Nat) (truth : Nat → Nat) (ht : ∀ id ∈ ids, 0 < truth id) (ops : List Op) (ho : ∀ o ∈ ops, Answers ids truth o) (n : Nat)
    (h : (run (fresh ids) ops).calls[n]? = some (.done (.ok ()))) (i id : Nat) (hi : ids[i]? = some id) (h0 : id ≠ 0) :
    ∃ c, (run (fresh ids) ops).classes[i]? = some c ∧ c.id = id ∧ Known c (truth id) := by
  obtain ⟨rs, hl, -, hrs⟩ := NodeInterview.C99_all ids ops n h
  have hlt : i < rs.length := by rw [hl]; exact (List.getElem?_eq_some_iff.mp hi).1
  obtain ⟨-, c, x, hc, hx, hon, hr⟩ := hrs i rs[i].1 rs[i].2 (List.getElem?_eq_getElem hlt)
  obtain ⟨how, hhow⟩ := hr _ rfl
  obtain ⟨id', h1, h2⟩ := ninv_run ht ops ho i c hc
  rw [hi] at h1; cases h1
  rcases result_ok h2 hx hon hhow with ⟨-, e, -⟩ | ⟨e, -, hv, -⟩
  · exact absurd e h0
  · subst e
    refine ⟨c, hc, h2.cid, hv, fun hb => ?_⟩
    rcases h2.mark ⟨x, List.mem_of_getElem? hx, _, hhow⟩ with e | ⟨y, hy, hy'⟩
    · exact e
    · exact absurd hy' (hb y hy)

/-- **C146.** It does not raise. -/
theorem C146_returns (ids : List Nat) (truth : Nat → Nat) (ht : ∀ id ∈ ids, 0 < truth id) (ops : List Op) (ho : ∀ o ∈ ops, Answers ids truth o) (n : Nat) (e : PyErr) :
    (run (fresh ids) ops).calls[n]? ≠ some (.done (.error e)) := by
  intro h
  obtain ⟨-, -, i, j, -, -, -, -, c, x, hc, hx, hon, hr⟩ := NodeInterview.C99_raises ids ops n e h
  obtain ⟨how, hhow⟩ := hr _ rfl
  obtain ⟨id, -, h2⟩ := ninv_run ht ops ho i c hc
  rcases result_ok h2 hx hon hhow with ⟨-, -, e⟩ | ⟨-, -, -, y, e⟩ <;> cases e

/-- The class number `i` is changed and nothing else of what matters. -/
private theorem cls_step (s : State) (i : Nat) (o : Interview.Op) (c : Interview.State) (hc : s.classes[i]? = some c) :
    (step s (.cls i o)).classes[i]? = some (Interview.step c o) ∧ (step s (.cls i o)).calls = s.calls ∧ (step s (.cls i o)).classes.length = s.classes.length := by
  have hlt := (List.getElem?_eq_some_iff.mp hc).1
  simp only [step, hc]
  split <;> exact ⟨by simp [State.store, hlt], rfl, by simp [State.store]⟩

/-- The call of the class can be brought to its end. -/
private theorem serve {ids : List Nat} {truth : Nat → Nat} (ht : ∀ id ∈ ids, 0 < truth id) (ops : List Op) (ho : ∀ o ∈ ops, Answers ids truth o) {n i j : Nat}
    (h : (run (fresh ids) ops).calls[n]? = some (.running i j)) :
    ∃ more, (∀ o ∈ more, Answers ids truth o) ∧ (run (fresh ids) (ops ++ more)).calls[n]? = some (.running i j) ∧
      ∃ c r, (run (fresh ids) (ops ++ more)).classes[i]? = some c ∧ result c j = some r := by
  -- a call that awaits the interview of the subclass
  have body : ∀ ops : List Op, (∀ o ∈ ops, Answers ids truth o) → (run (fresh ids) ops).calls[n]? = some (.running i j) → ∀ c x,
      (run (fresh ids) ops).classes[i]? = some c → c.calls[j]? = some x → x.pc = .body →
      ∃ more, (∀ o ∈ more, Answers ids truth o) ∧ (run (fresh ids) (ops ++ more)).calls[n]? = some (.running i j) ∧
        ∃ c r, (run (fresh ids) (ops ++ more)).classes[i]? = some c ∧ result c j = some r := by
    intro ops ho h c x hc hx hp
    refine ⟨[.cls i (.bodyEnds j (.ok .none))], fun o hm => ?_, ?_⟩
    · rw [List.mem_singleton] at hm; subst hm
      exact fun id _ => ⟨.none, rfl, by simp⟩
    · rw [run_snoc]
      obtain ⟨h1, h2, -⟩ := cls_step _ i (.bodyEnds j (.ok .none)) c hc
      refine ⟨by rw [h2]; exact h, _, .ok .none, h1, ?_⟩
      have hlt := (List.getElem?_eq_some_iff.mp hx).1
      simp only [Interview.step, hx, hp, if_true, result, List.getElem?_set_self hlt]
  obtain ⟨-, ⟨c, x, hc, hx, hon, -⟩, -⟩ := NodeInterview.C99_running ids ops n i j h
  have hlt := (List.getElem?_eq_some_iff.mp hx).1
  cases hp : x.pc with
  | done how r => exact ⟨[], by simp, by simpa using h, c, r, by simpa using hc, by simp [result, hx, hp]⟩
  | body => exact body ops ho h c x hc hx hp
  | version =>
    obtain ⟨id, hid, -⟩ := ninv_run ht ops ho i c hc
    have hv := ht id (List.mem_of_getElem? hid)
    have ha : Answers ids truth (.cls i (.versionAnswer j (.ok (truth id)))) := by
      intro id' h'; rw [hid] at h'; cases h'; rfl
    obtain ⟨h1, h2, -⟩ := cls_step _ i (.versionAnswer j (.ok (truth id))) c hc
    rw [← run_snoc] at h1 h2
    obtain ⟨more, m1, m2, m3⟩ := body (ops ++ [.cls i (.versionAnswer j (.ok (truth id)))])
      (fun o hm => by
        rcases List.mem_append.mp hm with hm | hm
        · exact ho o hm
        · rw [List.mem_singleton] at hm; subst hm; exact ha)
      (by rw [h2]; exact h) _ ⟨false, .body⟩ h1
      (by
        have hz : truth id ≠ 0 := by omega
        simp only [Interview.step, hx, hp, if_true, hon, Bool.false_eq_true, if_false, hz, List.getElem?_set_self hlt]) rfl
    rw [List.append_assoc] at m2 m3
    refine ⟨[.cls i (.versionAnswer j (.ok (truth id)))] ++ more, fun o hm => ?_, m2, m3⟩
    rcases List.mem_append.mp hm with hm | hm
    · rw [List.mem_singleton] at hm; subst hm; exact ha
    · exact m1 o hm

/-- **C146.** It can always be completed: whatever has happened, if the node goes on answering then the call can end, and only by returning. -/
theorem C146_finishes (ids : List Nat) (truth : Nat → Nat) (ht : ∀ id ∈ ids, 0 < truth id) (ops : List Op) (ho : ∀ o ∈ ops, Answers ids truth o) (n : Nat)
    (h : n < (run (fresh ids) ops).calls.length) :
    ∃ more, (∀ o ∈ more, Answers ids truth o) ∧ (run (fresh ids) (ops ++ more)).calls[n]? = some (.done (.ok ())) := by
  -- by the number of classes that are left
  have key : ∀ (k : Nat) (ops : List Op), (∀ o ∈ ops, Answers ids truth o) → ∀ i j, (run (fresh ids) ops).calls[n]? = some (.running i j) → ids.length ≤ i + k →
      ∃ more, (∀ o ∈ more, Answers ids truth o) ∧ (run (fresh ids) (ops ++ more)).calls[n]? = some (.done (.ok ())) := by
    intro k
    induction k with
    | zero =>
      intro ops ho i j h hk
      have := (NodeInterview.C99_running ids ops n i j h).1
      omega
    | succ k ih =>
      intro ops ho i j h hk
      obtain ⟨m1, a1, a2, c, r, hc, hr⟩ := serve ht ops ho h
      have ho1 : ∀ o ∈ ops ++ m1, Answers ids truth o := fun o hm => (List.mem_append.mp hm).elim (ho o) (a1 o)
      have ho2 : ∀ o ∈ ops ++ m1 ++ [.resume n], Answers ids truth o := fun o hm =>
        (List.mem_append.mp hm).elim (ho1 o) (fun hm => by rw [List.mem_singleton] at hm; subst hm; trivial)
      have hok : ∀ o ∈ m1 ++ [.resume n], Answers ids truth o := fun o hm =>
        (List.mem_append.mp hm).elim (a1 o) (fun hm => by rw [List.mem_singleton] at hm; subst hm; trivial)
      rcases NodeInterview.C99_continues _ n i j c r a2 hc hr with ⟨j', g⟩ | ⟨-, g⟩ | ⟨e, -, -, g⟩
      · rw [← run_snoc] at g
        obtain ⟨m2, b1, b2⟩ := ih _ ho2 (i + 1) j' g (by omega)
        rw [List.append_assoc, List.append_assoc, ← List.append_assoc m1] at b2
        exact ⟨m1 ++ [.resume n] ++ m2, fun o hm => (List.mem_append.mp hm).elim (hok o) (b1 o), b2⟩
      · rw [← run_snoc, List.append_assoc] at g
        exact ⟨m1 ++ [.resume n], hok, g⟩
      · rw [← run_snoc] at g
        exact absurd g (C146_returns ids truth ht _ ho2 n e)
  cases hpc : (run (fresh ids) ops).calls[n]? with
  | none => rw [List.getElem?_eq_none_iff] at hpc; omega
  | some pc =>
    cases pc with
    | running i j => exact key ids.length ops ho i j hpc (by omega)
    | done r =>
      cases r with
      | ok u => exact ⟨[], by simp, by simpa using hpc⟩
      | error e => exact absurd hpc (C146_returns ids truth ht ops ho n e)

/-- A class with the number 0 (NO_OPERATION in the node information) has no version to ask for and is never marked; this is why it is excluded. -/
theorem C146_zero (ids : List Nat) (truth : Nat → Nat) (ht : ∀ id ∈ ids, 0 < truth id) (ops : List Op) (ho : ∀ o ∈ ops, Answers ids truth o) (i : Nat)
    (hi : ids[i]? = some 0) (c : Interview.State) (hc : (run (fresh ids) ops).classes[i]? = some c) : c.version = 0 := by
  obtain ⟨id, h1, h2⟩ := ninv_run ht ops ho i c hc
  rw [hi] at h1; cases h1
  exact h2.ver.resolve_right fun h => h.1 rfl

/-- Two interviews of a node overlap with each other and with one of a single class; the first has returned, and the second class is being interviewed again. -/
def example146 : List Op :=
  [.interview, .interview, .cls 0 (.versionAnswer 1 (.ok 2)), .cls 0 (.versionAnswer 0 (.ok 2)), .cls 0 (.bodyEnds 0 (.ok (.bool true))), .resume 0,
   .cls 1 .requestVersion, .cls 0 (.bodyEnds 1 (.ok .none)), .cls 1 (.versionAnswer 0 (.ok 4)), .cls 1 (.versionAnswer 1 (.ok 4)), .cls 1 (.bodyEnds 0 (.ok .none)), .resume 0, .resume 1]

example : let s := run (fresh [0x25, 0x31]) example146
    s.calls = [.done (.ok ()), .running 1 2] ∧ s.classes.map (·.version) = [2, 4] ∧ s.classes.map (·.interviewed) = [true, false] := by decide +kernel

/-- The hypotheses hold for it. -/
example : ∀ o ∈ example146, Answers [0x25, 0x31] (fun id => if id = 0x25 then 2 else 4) o := by
  simp [example146, Answers, Truth]

end Props.Truthful

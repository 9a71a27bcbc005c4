import Verif.Spec.NodeNet
import Verif.Props.Silence
/-!
# Lemmas about a node in the network
-/
namespace Props.NodeNet
open Model Model.NodeNet Spec.System Spec.NodeNet
open Model.ClassRun (pcOf)
open Props.ClassNet (sysOps issued)

variable {σ : Nat → Type}

/-! ## One class -/

theorem put_self (s : State σ) (k : Nat) (x : ClassNet.State (σ k)) : (s.put k x).cls k = x := by simp [State.put, State.cls]

theorem put_other (s : State σ) {k j : Nat} (x : ClassNet.State (σ k)) (h : j ≠ k) : (s.put k x).cls j = { s.cls j with sys := x.sys } := by simp [State.put, State.cls, h]

/-- What happens to the system when something happens to a class. -/
theorem issue_sys {τ : Type} (nd : App.Nd) (s : ClassNet.State τ) (i : Nat) : (ClassNet.issue nd s i).sys = System.run s.sys (issued nd s i) := by
  unfold ClassNet.issue issued
  cases ClassNet.wants s.cls i with
  | none => rfl
  | some w =>
    cases w with
    | ask cmd hid => cases cmd <;> rfl
    | send cmd => cases cmd <;> rfl

theorem step_sys {τ : Type} (nd : App.Nd) (c : ClassRun.Cls τ) (s : ClassNet.State τ) (o : ClassNet.Op τ) : (ClassNet.step nd c s o).sys = System.run s.sys (sysOps nd c s o) := by
  cases o with
  | interview => exact issue_sys _ _ _
  | requestVersion => exact issue_sys _ _ _
  | proceed i =>
    simp only [ClassNet.step, sysOps]
    cases ClassNet.gives nd s i with
    | none => rfl
    | some o => exact issue_sys _ _ _
  | sys o => rfl
  | load v b f => rfl
  | others f => rfl

/-- The class, and the operation, that an operation is for. -/
def acts (N : Node σ) (s : State σ) : Op σ → Option ((k : Nat) × Own (σ k))
  | .interview => if 0 < N.size then some ⟨0, .interview⟩ else none
  | .resume n =>
    match s.calls[n]? with
    | some (.running k j) =>
      match NodeInterview.result (s.parts k).cls.dec j with
      | none => none
      | some (.ok _) | some (.error .timeout) => if k + 1 < N.size then some ⟨k + 1, .interview⟩ else none
      | some (.error _) => none
    | _ => none
  | .cls k o => some ⟨k, o⟩
  | .sys _ => none

theorem begin_cls (N : Node σ) (s : State σ) (n k j : Nat) : (begin N s n k).cls j = if k < N.size then (act N s k .interview).cls j else s.cls j := by
  unfold begin
  split <;> rfl

/-- Every operation is one for one class, for the network or for no class. -/
theorem step_acts (N : Node σ) (s : State σ) (o : Op σ) (j : Nat) :
    (step N s o).cls j = match acts N s o with
      | some ⟨k, x⟩ => (act N s k x.op).cls j
      | none => match o with
        | .sys x => { s.cls j with sys := System.step s.sys x }
        | _ => s.cls j := by
  cases o with
  | interview =>
    simp only [step, acts, begin_cls]
    split <;> rfl
  | resume n =>
    simp only [step, acts]
    cases hc : s.calls[n]? with
    | none => rfl
    | some pc =>
      cases pc with
      | done r => rfl
      | running k i =>
        dsimp only
        cases NodeInterview.result (s.parts k).cls.dec i with
        | none => rfl
        | some r =>
          dsimp only
          cases r with
          | ok v => dsimp only; rw [begin_cls]; split <;> rfl
          | error e =>
            cases e with
            | timeout => dsimp only; rw [begin_cls]; split <;> rfl
            | _ => rfl
  | cls k o => rfl
  | sys x => rfl

/-- What an operation is for class number `j`. -/
theorem step_view (N : Node σ) (s : State σ) (o : Op σ) (j : Nat) :
    ∃ l : List (ClassNet.Op (σ j)), (step N s o).cls j = ClassNet.run N.nd (N.c j) (s.cls j) l ∧
      (l = [] ∨ (∃ x, l = [.sys x] ∧ (o = .sys x ∨ ∀ g, x ≠ .net (.gw g))) ∨ l = [.interview] ∨ ∃ x : Own (σ j), l = [x.op] ∧ o = .cls j x) := by
  rw [step_acts]
  cases ha : acts N s o with
  | none =>
    dsimp only
    cases o with
    | sys x => exact ⟨[.sys x], rfl, .inr (.inl ⟨x, rfl, .inl rfl⟩)⟩
    | _ => exact ⟨[], rfl, .inl rfl⟩
  | some p =>
    obtain ⟨k, x⟩ := p
    dsimp only
    by_cases h : j = k
    · subst h
      refine ⟨[x.op], put_self _ _ _, ?_⟩
      cases o with
      | cls k o => cases ha; exact .inr (.inr (.inr ⟨x, rfl, rfl⟩))
      | sys o => cases ha
      | interview =>
        simp only [acts] at ha
        split at ha
        · cases ha; exact .inr (.inr (.inl rfl))
        · cases ha
      | resume n =>
        simp only [acts] at ha
        repeat' split at ha
        all_goals first
          | cases ha; done
          | (cases ha; exact .inr (.inr (.inl rfl)))
    · have e : (act N s k x.op).cls j = { s.cls j with sys := System.run s.sys (sysOps N.nd (N.c k) (s.cls k) x.op) } := by
        rw [act, put_other _ _ h, step_sys]; rfl
      rw [e]
      rcases Props.ClassNet.sysOps_gw (nd := N.nd) (N.c k) (s.cls k) x.op with ⟨y, hy⟩ | hy | ⟨y, hy, hg⟩
      · cases x <;> cases hy
      · rw [hy]; exact ⟨[], rfl, .inl rfl⟩
      · rw [hy]; exact ⟨[.sys y], rfl, .inr (.inl ⟨y, rfl, .inr hg⟩)⟩

/-! ## The whole history -/

theorem run_snoc (N : Node σ) (s : State σ) (l : List (Op σ)) (o : Op σ) : run N s (l ++ [o]) = step N (run N s l) o := by simp [run, List.foldl_append]

theorem run_append (N : Node σ) (s : State σ) (l l' : List (Op σ)) : run N s (l ++ l') = run N (run N s l) l' := by simp [run, List.foldl_append]

/-- Something at the end of a list. -/
theorem split_snoc {α : Type} {l a b : List α} {x y : α} (h : l ++ [x] = a ++ y :: b) : (b = [] ∧ y = x ∧ a = l) ∨ ∃ b', l = a ++ y :: b' := by
  induction b using Conn.snoc_ind with
  | nil =>
    have := List.append_inj' h rfl
    simp at this
    exact .inl ⟨rfl, this.2.symm, this.1.symm⟩
  | snoc b' z _ =>
    have := List.append_inj' (s₁ := l) (t₁ := [x]) (s₂ := a ++ y :: b') (t₂ := [z]) (by simpa using h) rfl
    exact .inr ⟨b', this.1⟩

/-- What has happened for class number `k`. -/
structure View (N : Node σ) (s : State σ) (k : Nat) (ops : List (Op σ)) (l : List (ClassNet.Op (σ k))) : Prop where
  now : (run N s ops).cls k = ClassNet.run N.nd (N.c k) (s.cls k) l
  split : ∀ before g after, l = before ++ .sys (.net (.gw g)) :: after → ∃ pre post, ops = pre ++ .sys (.net (.gw g)) :: post ∧
    (run N s pre).sys = (ClassNet.run N.nd (N.c k) (s.cls k) before).sys
  load : ∀ v b f, .load v b f ∈ l → .cls k (.load v b f) ∈ ops
  others : ∀ f, .others f ∈ l → .cls k (.others f) ∈ ops

theorem View.step {N : Node σ} {s : State σ} {k : Nat} {ops : List (Op σ)} {l : List (ClassNet.Op (σ k))} (h : View N s k ops l) (o : Op σ) {l' : List (ClassNet.Op (σ k))}
    (h1 : (NodeNet.step N (run N s ops) o).cls k = ClassNet.run N.nd (N.c k) ((run N s ops).cls k) l')
    (h2 : l' = [] ∨ (∃ x, l' = [.sys x] ∧ (o = .sys x ∨ ∀ g, x ≠ .net (.gw g))) ∨ l' = [.interview] ∨ ∃ x : Own (σ k), l' = [x.op] ∧ o = .cls k x) :
    View N s k (ops ++ [o]) (l ++ l') where
  now := by rw [run_snoc, h1, h.now, ClassNet.run, ClassNet.run, ClassNet.run, List.foldl_append]
  split := by
    intro before g after e
    have old : ∀ after', l = before ++ .sys (.net (.gw g)) :: after' → ∃ pre post, ops ++ [o] = pre ++ .sys (.net (.gw g)) :: post ∧
        (run N s pre).sys = (ClassNet.run N.nd (N.c k) (s.cls k) before).sys := by
      intro after' e
      obtain ⟨pre, post, h3, h4⟩ := h.split before g after' e
      exact ⟨pre, post ++ [o], by rw [h3]; simp, h4⟩
    rcases h2 with rfl | ⟨x, rfl, hx⟩ | rfl | ⟨x, rfl, -⟩
    · exact old after (by simpa using e)
    · rcases split_snoc e with ⟨-, e', rfl⟩ | ⟨b', e'⟩
      · cases e'
        rcases hx with rfl | hx
        · exact ⟨ops, [], rfl, congrArg ClassNet.State.sys h.now⟩
        · exact absurd rfl (hx g)
      · exact old b' e'
    · rcases split_snoc e with ⟨-, e', -⟩ | ⟨b', e'⟩
      · cases e'
      · exact old b' e'
    · rcases split_snoc e with ⟨-, e', -⟩ | ⟨b', e'⟩
      · cases x <;> cases e'
      · exact old b' e'
  load := by
    intro v b f hm
    rcases List.mem_append.1 hm with hm | hm
    · exact List.mem_append_left _ (h.load v b f hm)
    · rcases h2 with rfl | ⟨x, rfl, hx⟩ | rfl | ⟨x, rfl, rfl⟩
      · cases hm
      · simp at hm
      · simp at hm
      · cases x <;> simp [Own.op] at hm
        obtain ⟨rfl, rfl, rfl⟩ := hm
        simp
  others := by
    intro f hm
    rcases List.mem_append.1 hm with hm | hm
    · exact List.mem_append_left _ (h.others f hm)
    · rcases h2 with rfl | ⟨x, rfl, hx⟩ | rfl | ⟨x, rfl, rfl⟩
      · cases hm
      · simp at hm
      · simp at hm
      · cases x <;> simp [Own.op] at hm
        subst hm
        simp

theorem view_sys (N : Node σ) (s : State σ) (k : Nat) (os : List System.Op) : View N s k (os.map .sys) (os.map .sys) := by
  induction os using Conn.snoc_ind with
  | nil => exact ⟨rfl, by simp, by simp, by simp⟩
  | snoc os o ih =>
    simp only [List.map_append, List.map_cons, List.map_nil]
    exact ih.step (.sys o) rfl (.inr (.inl ⟨o, rfl, .inl rfl⟩))

/-- The history of class number `k`. -/
theorem view (h : Life σ) (k : Nat) : ∃ l, View h.node (init h.own h.ids h.attrs) k h.all (h.pre.map .sys ++ l) := by
  obtain ⟨own, node, ids, attrs, pre, ops, known⟩ := h
  simp only [Life.all]
  clear known
  induction ops using Conn.snoc_ind with
  | nil => exact ⟨[], by simpa using view_sys node (init own ids attrs) k pre⟩
  | snoc ops o ih =>
    obtain ⟨l, h⟩ := ih
    obtain ⟨l', h1, h2⟩ := step_view node (run node (init own ids attrs) (pre.map .sys ++ ops)) o k
    exact ⟨l ++ l', by rw [← List.append_assoc, ← List.append_assoc]; exact h.step o h1 h2⟩

/-- A history of class number `k`, which says no more than that of the node. -/
theorem life (h : Life σ) (k : Nat) : ∃ l : Spec.ClassNet.Life (σ k), l.own = h.own ∧ l.nd = h.node.nd ∧ l.c = h.node.c k ∧ l.id = h.ids k ∧ l.attrs = h.attrs k ∧ l.now = h.now.cls k ∧
    (∀ m, l.Said m → h.Said m) ∧ (∀ cmd, l.Acknowledged cmd → h.Acknowledged cmd) ∧ (∀ v, l.LoadedVersion v → h.LoadedVersion k v) ∧ (h.OnlyAsked k → l.OnlyAsked) := by
  obtain ⟨l, v⟩ := view h k
  have hm : ∀ x, .cls k x ∈ h.all → .cls k x ∈ h.ops := by
    intro x hx
    rcases List.mem_append.1 hx with hx | hx
    · simp at hx
    · exact hx
  refine ⟨⟨h.own, h.node.nd, h.node.c k, h.ids k, h.attrs k, h.pre, l, h.known⟩, rfl, rfl, rfl, rfl, rfl, v.now.symm, ?_, ?_, ?_, ?_⟩
  · rintro m ⟨x, hx, before, o, after, e, hf⟩
    obtain ⟨pre, post, h1, h2⟩ := v.split before o after e
    refine ⟨x, hx, pre, o, post, h1, ?_⟩
    have h2 : (h.after pre).sys = _ := h2
    rw [h2]; exact hf
  · rintro cmd ⟨before, c, b, after, e, hf⟩
    obtain ⟨pre, post, h1, h2⟩ := v.split before _ after e
    refine ⟨pre, c, b, post, h1, ?_⟩
    have h2 : (h.after pre).sys = _ := h2
    rw [h2]; exact hf
  · rintro w ⟨b, f, hw⟩
    exact ⟨b, f, hm _ (v.load w b f (List.mem_append_right _ hw))⟩
  · rintro ⟨h1, h2⟩ o ho
    refine ⟨?_, ?_⟩
    · rintro w b f rfl
      exact h1 w b f (hm _ (v.load w b f (List.mem_append_right _ ho)))
    · rintro f rfl
      exact h2 f (hm _ (v.others f (List.mem_append_right _ ho)))

end Props.NodeNet

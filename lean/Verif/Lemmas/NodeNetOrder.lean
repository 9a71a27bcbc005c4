import Verif.Lemmas.NodeNet
import Verif.Props.NodeInterview
/-!
# A node in the network is a node

Interviews of a node in the network are interviews of a node (`Model/NodeInterview.lean`).
-/
namespace Props.NodeNet
open Model Model.NodeNet

variable {σ : Nat → Type}

/-! ## One class -/

theorem go_dec {τ : Type} (s : ClassRun.State τ) (i : Nat) (p : Body.Prog τ) : ∃ l : List Interview.Op, (ClassRun.go s i p).dec = l.foldl Interview.step s.dec := by
  simp only [ClassRun.go]
  split
  · exact ⟨[.bodyEnds i _], rfl⟩
  · exact ⟨[], rfl⟩

theorem cls_dec {τ : Type} (c : ClassRun.Cls τ) (s : ClassRun.State τ) (o : ClassRun.Op τ) :
    ∃ l : List Interview.Op, (ClassRun.step c s o).dec = l.foldl Interview.step s.dec ∧ (o = .interview → ∃ l', l = .interview :: l') := by
  cases o with
  | interview =>
    simp only [ClassRun.step]
    split
    · obtain ⟨l, h⟩ := go_dec { s with dec := Interview.step s.dec .interview, bodies := s.bodies ++ [.ret (.ok .none)] } s.dec.calls.length c.prog
      exact ⟨.interview :: l, h, fun _ => ⟨l, rfl⟩⟩
    · exact ⟨[.interview], rfl, fun _ => ⟨[], rfl⟩⟩
  | requestVersion => exact ⟨[.requestVersion], rfl, by simp⟩
  | versionAnswer i r =>
    simp only [ClassRun.step]
    split
    · obtain ⟨l, h⟩ := go_dec { s with dec := Interview.step s.dec (.versionAnswer i r), attrs := c.version (Interview.step s.dec (.versionAnswer i r)).version s.attrs } i c.prog
      exact ⟨.versionAnswer i r :: l, h, by simp⟩
    · exact ⟨[.versionAnswer i r], rfl, by simp⟩
  | answer i r =>
    simp only [ClassRun.step]
    split
    · rename_i q k _
      obtain ⟨l, h⟩ := go_dec { s with trace := s.trace ++ [⟨i, .asked q (some r)⟩] } i (k r)
      exact ⟨l, h, by simp⟩
    · exact ⟨[], rfl, by simp⟩
  | acked i r =>
    simp only [ClassRun.step]
    split
    · rename_i q k _
      obtain ⟨l, h⟩ := go_dec { s with trace := s.trace ++ [⟨i, .sent q (some r)⟩] } i (k r)
      exact ⟨l, h, by simp⟩
    · exact ⟨[], rfl, by simp⟩
  | load v b f => exact ⟨[.load v b], rfl, by simp⟩
  | others f => exact ⟨[], rfl, by simp⟩

theorem net_dec {τ : Type} (nd : App.Nd) (c : ClassRun.Cls τ) (s : ClassNet.State τ) (o : ClassNet.Op τ) :
    ∃ l : List Interview.Op, (ClassNet.step nd c s o).cls.dec = l.foldl Interview.step s.cls.dec ∧ (o = .interview → ∃ l', l = .interview :: l') := by
  rw [ClassNet.step_cls]
  cases o with
  | interview =>
    obtain ⟨l, h1, h2⟩ := cls_dec c s.cls .interview
    exact ⟨l, h1, fun _ => h2 rfl⟩
  | requestVersion => obtain ⟨l, h1, -⟩ := cls_dec c s.cls .requestVersion; exact ⟨l, h1, by simp⟩
  | proceed i =>
    simp only [ClassNet.clsOps]
    cases ClassNet.gives nd s i with
    | none => exact ⟨[], rfl, by simp⟩
    | some x => obtain ⟨l, h1, -⟩ := cls_dec c s.cls x; exact ⟨l, h1, by simp⟩
  | sys x => exact ⟨[], rfl, by simp⟩
  | load v b f => obtain ⟨l, h1, -⟩ := cls_dec c s.cls (.load v b f); exact ⟨l, h1, by simp⟩
  | others f => obtain ⟨l, h1, -⟩ := cls_dec c s.cls (.others f); exact ⟨l, h1, by simp⟩

/-! ## The node -/

/-- The same node. -/
structure Same (N : Node σ) (s : State σ) (t : NodeInterview.State) : Prop where
  classes : ∀ k, t.classes[k]? = if k < N.size then some (s.parts k).cls.dec else none
  calls : t.calls = s.calls
  trace : t.trace = s.trace

/-- Anything that happens to a class. -/
theorem cls_run (k : Nat) (l : List Interview.Op) : ∀ (t : NodeInterview.State) (d : Interview.State), t.classes[k]? = some d →
    (NodeInterview.run t (l.map (.cls k))).classes[k]? = some (l.foldl Interview.step d) ∧ (∀ j, j ≠ k → (NodeInterview.run t (l.map (.cls k))).classes[j]? = t.classes[j]?) ∧
    (NodeInterview.run t (l.map (.cls k))).calls = t.calls ∧ (NodeInterview.run t (l.map (.cls k))).trace = t.trace := by
  induction l with
  | nil => intro t d h; exact ⟨h, fun _ _ => rfl, rfl, rfl⟩
  | cons o l ih =>
    intro t d h
    have hlt : k < t.classes.length := (List.getElem?_eq_some_iff.1 h).1
    have e : (NodeInterview.step t (.cls k o)).classes = t.classes.set k (Interview.step d o) ∧ (NodeInterview.step t (.cls k o)).calls = t.calls ∧
        (NodeInterview.step t (.cls k o)).trace = t.trace := by
      simp only [NodeInterview.step, h]
      split <;> exact ⟨rfl, rfl, rfl⟩
    obtain ⟨h1, h2, h3, h4⟩ := ih (NodeInterview.step t (.cls k o)) (Interview.step d o) (by rw [e.1]; exact List.getElem?_set_self hlt)
    exact ⟨h1, fun j hj => (h2 j hj).trans (by rw [e.1]; exact List.getElem?_set_ne (Ne.symm hj)), h3.trans e.2.1, h4.trans e.2.2⟩

theorem act_parts (N : Node σ) (s : State σ) (k : Nat) (o : ClassNet.Op (σ k)) :
    ((act N s k o).parts k).cls = (ClassNet.step N.nd (N.c k) (s.cls k) o).cls ∧ (∀ j, j ≠ k → (act N s k o).parts j = s.parts j) := by
  refine ⟨congrArg ClassNet.State.cls (put_self _ _ _), fun j hj => by simp [act, State.put, hj]⟩

theorem Same.begins {N : Node σ} {s : State σ} {t t' : NodeInterview.State} (h : Same N s t) (n k : Nat) (o : NodeInterview.Op) (ho : NodeInterview.step t' o = NodeInterview.begin t n k) :
    ∃ l, Same N (begin N s n k) (NodeInterview.run t' l) := by
  by_cases hk : k < N.size
  · have hc := h.classes k
    rw [if_pos hk] at hc
    have hlt : k < t.classes.length := (List.getElem?_eq_some_iff.1 hc).1
    obtain ⟨l, h1, h2⟩ := net_dec N.nd (N.c k) (s.cls k) .interview
    obtain ⟨l', rfl⟩ := h2 rfl
    have hb : NodeInterview.begin t n k = { t with classes := t.classes.set k (Interview.step (s.parts k).cls.dec .interview), calls := t.calls.set n (.running k (s.parts k).cls.dec.calls.length), trace := t.trace ++ [.began n k (s.parts k).cls.dec.calls.length] } := by
      simp only [NodeInterview.begin, hc]
    obtain ⟨h3, h4, h5, h6⟩ := cls_run k l' (NodeInterview.begin t n k) (Interview.step (s.parts k).cls.dec .interview) (by rw [hb]; exact List.getElem?_set_self hlt)
    have hr : NodeInterview.run t' (o :: l'.map (.cls k)) = NodeInterview.run (NodeInterview.begin t n k) (l'.map (.cls k)) := by rw [← ho]; rfl
    refine ⟨o :: l'.map (.cls k), ?_⟩
    rw [hr]
    have hs : begin N s n k = { act N s k .interview with calls := s.calls.set n (.running k (s.parts k).cls.dec.calls.length), trace := s.trace ++ [.began n k (s.parts k).cls.dec.calls.length] } := by
      simp only [begin, if_pos hk]
    refine ⟨fun j => ?_, ?_, ?_⟩
    · by_cases hj : j = k
      · subst hj
        rw [h3, if_pos hk, hs]
        have := (act_parts N s j .interview).1
        show _ = some ((act N s j .interview).parts j).cls.dec
        rw [this, h1]
        rfl
      · rw [h4 j hj, hb, hs]
        show (t.classes.set k _)[j]? = if j < N.size then some ((act N s k .interview).parts j).cls.dec else none
        rw [List.getElem?_set_ne (Ne.symm hj), (act_parts N s k .interview).2 j hj]
        exact h.classes j
    · rw [h5, hb, hs]; simp only [h.calls]
    · rw [h6, hb, hs]; simp only [h.trace]
  · have hc := h.classes k
    rw [if_neg hk] at hc
    refine ⟨[o], ?_⟩
    show Same N _ (NodeInterview.step t' o)
    rw [ho]
    have hs : begin N s n k = { s with calls := s.calls.set n (.done (.ok ())) } := by simp only [begin, if_neg hk]
    rw [hs]
    simp only [NodeInterview.begin, hc]
    exact ⟨h.classes, by simp only [h.calls], h.trace⟩

theorem Same.step {N : Node σ} {s : State σ} {t : NodeInterview.State} (h : Same N s t) (o : Op σ) (hh : ∀ n k j : Nat, s.calls[n]? = some (NodeInterview.Pc.running k j) → k < N.size) :
    ∃ l, Same N (NodeNet.step N s o) (NodeInterview.run t l) := by
  cases o with
  | interview =>
    have h' : Same N { s with calls := s.calls ++ [.done (.ok ())] } { t with calls := t.calls ++ [.done (.ok ())] } := ⟨h.classes, by simp only [h.calls], h.trace⟩
    exact h'.begins s.calls.length 0 .interview (by simp only [NodeInterview.step, h.calls])
  | resume n =>
    simp only [NodeNet.step]
    cases hc : s.calls[n]? with
    | none => exact ⟨[], h⟩
    | some pc =>
      cases pc with
      | done r => exact ⟨[], h⟩
      | running k j =>
        dsimp only
        have hk := hh n k j hc
        have ht : t.classes[k]? = some (s.parts k).cls.dec := by rw [h.classes, if_pos hk]
        have hct : t.calls[n]? = some (.running k j) := by rw [h.calls]; exact hc
        cases hr : NodeInterview.result (s.parts k).cls.dec j with
        | none => exact ⟨[], h⟩
        | some r =>
          have h' : Same N { s with trace := s.trace ++ [.ended n k j r] } { t with trace := t.trace ++ [.ended n k j r] } := ⟨h.classes, h.calls, by simp only [h.trace]⟩
          cases r with
          | ok v => exact h'.begins n (k + 1) (.resume n) (by simp only [NodeInterview.step, hct, ht, hr])
          | error x =>
            by_cases hx : x = .timeout
            · subst hx
              exact h'.begins n (k + 1) (.resume n) (by simp only [NodeInterview.step, hct, ht, hr])
            · refine ⟨[.resume n], ?_⟩
              show Same N _ (NodeInterview.step t (.resume n))
              simp only [NodeInterview.step, hct, ht, hr]
              exact ⟨h.classes, by simp only [h.calls], by simp only [h.trace]⟩
  | cls k x =>
    by_cases hk : k < N.size
    · have hc := h.classes k
      rw [if_pos hk] at hc
      obtain ⟨l, h1, -⟩ := net_dec N.nd (N.c k) (s.cls k) x.op
      obtain ⟨h3, h4, h5, h6⟩ := cls_run k l t _ hc
      refine ⟨l.map (.cls k), fun j => ?_, h5.trans h.calls, h6.trans h.trace⟩
      by_cases hj : j = k
      · subst hj
        rw [h3, if_pos hk]
        have := (act_parts N s j x.op).1
        show _ = some ((act N s j x.op).parts j).cls.dec
        rw [this, h1]
        rfl
      · rw [h4 j hj]
        show _ = if j < N.size then some ((act N s k x.op).parts j).cls.dec else none
        rw [(act_parts N s k x.op).2 j hj]
        exact h.classes j
    · refine ⟨[], fun j => ?_, h.calls, h.trace⟩
      show t.classes[j]? = if j < N.size then some ((act N s k x.op).parts j).cls.dec else none
      by_cases hj : j = k
      · subst hj
        rw [if_neg hk, h.classes, if_neg hk]
      · rw [(act_parts N s k x.op).2 j hj]
        exact h.classes j
  | sys x => exact ⟨[], h.classes, h.calls, h.trace⟩

end Props.NodeNet

import Verif.Lemmas.Application
/-! Helper lemmas: the node objects of the application. -/
namespace Lemmas.App
open Model Model.App

/-- The nodes a waiting call knows. -/
def pcNds : Pc → List Nd
  | .info _ _ _ new => new
  | .eps _ nd _ new => nd :: new
  | .cap _ nd _ _ _ new => nd :: new
  | .addedAll _ new => new
  | .adding _ todo _ => todo
  | _ => []

/-- The nodes an event is about. -/
def evNds : Ev → List Nd
  | .addedAll _ nds => nds
  | .added _ nd => [nd]
  | _ => []

/-- All nodes anything knows satisfy `P`. -/
structure V (P : Nd → Prop) (s : State) : Prop where
  table : ∀ p ∈ s.nodes, P p.2
  pcs : ∀ pc ∈ s.calls, ∀ nd ∈ pcNds pc, P nd
  evs : ∀ e ∈ s.trace, ∀ nd ∈ evNds e, P nd

theorem V.mono {P Q : Nd → Prop} {s : State} (h : V P s) (hpq : ∀ nd, P nd → Q nd) : V Q s :=
  ⟨fun p hp => hpq _ (h.table p hp), fun pc hpc nd hn => hpq _ (h.pcs pc hpc nd hn), fun e he nd hn => hpq _ (h.evs e he nd hn)⟩

variable {P : Nd → Prop}

theorem v_goto {s : State} (h : V P s) (i : Nat) {pc : Pc} (hp : ∀ nd ∈ pcNds pc, P nd) : V P (s.goto i pc) := by
  refine ⟨h.table, ?_, h.evs⟩
  intro q hq
  rcases List.mem_or_eq_of_mem_set hq with hq | rfl
  · exact h.pcs q hq
  · exact hp

theorem v_see {s : State} (h : V P s) {e : Ev} (he : ∀ nd ∈ evNds e, P nd) : V P (s.see e) := by
  refine ⟨h.table, h.pcs, ?_⟩
  intro x hx
  rcases List.mem_append.1 hx with hx | hx
  · exact h.evs x hx
  · rw [List.mem_singleton.1 hx]; exact he

theorem v_load (i : Nat) (k : Kind) (rest : List Nat) : ∀ (s : State) (new : List Nd), V P s → (∀ nd ∈ new, P nd) → V P (load s i k new rest) := by
  induction rest with
  | nil =>
    intro s new h hn
    unfold load
    cases k with
    | startup => exact v_goto h i (by simp [pcNds])
    | update =>
      dsimp only
      split
      · exact v_goto h i (by simp [pcNds])
      · exact v_goto (v_see h (e := .addedAll i new) hn) i (pc := .addedAll .update new) hn
  | cons n rest ih =>
    intro s new h hn
    unfold load
    split
    · exact ih s new h hn
    · split
      · exact ih s new h hn
      · exact v_goto h i (pc := .info k n rest new) hn

theorem load_nodes (i : Nat) (k : Kind) (rest : List Nat) : ∀ (s : State) (new : List Nd), (load s i k new rest).nodes = s.nodes ∧ (load s i k new rest).objs = s.objs := by
  induction rest with
  | nil =>
    intro s new
    unfold load
    cases k with
    | startup => exact ⟨rfl, rfl⟩
    | update => dsimp only; split <;> exact ⟨rfl, rfl⟩
  | cons n rest ih =>
    intro s new
    unfold load
    split
    · exact ih s new
    · split
      · exact ih s new
      · exact ⟨rfl, rfl⟩

theorem v_remove (i : Nat) (all : List Str) (l : List Nat) (todo : List Str) {s : State} (h : V P s) : V P (remove s i all l todo) := by
  cases todo with
  | nil =>
    unfold remove
    dsimp only
    split
    · exact v_load i .update l s [] h (by simp)
    · exact v_goto (v_see h (e := .removedAll i all) (by simp [evNds])) i (by simp [pcNds])
  | cons q todo =>
    unfold remove
    dsimp only
    split
    · refine v_goto (v_see (s := { s with nodes := s.nodes.erase q }) ⟨fun p hp => h.table p (List.mem_filter.1 hp |>.1), h.pcs, h.evs⟩ (e := .removed i q) (by simp [evNds])) i
        (by simp [pcNds])
    · exact v_goto h i (by simp [pcNds])

theorem remove_nodes (i : Nat) (all : List Str) (l : List Nat) (todo : List Str) (s : State) :
    (∀ p ∈ (remove s i all l todo).nodes, p ∈ s.nodes) ∧ (remove s i all l todo).objs = s.objs := by
  cases todo with
  | nil =>
    unfold remove
    dsimp only
    split
    · obtain ⟨h1, h2⟩ := load_nodes i .update l s []
      rw [h1, h2]
      exact ⟨fun p hp => hp, rfl⟩
    · exact ⟨fun p hp => hp, rfl⟩
  | cons q todo =>
    unfold remove
    dsimp only
    split
    · exact ⟨fun p hp => (List.mem_filter.1 hp).1, rfl⟩
    · exact ⟨fun p hp => hp, rfl⟩

theorem v_announce (i : Nat) (k : Kind) (size : Nat) (todo : List Nd) {s : State} (h : V P s) (ht : ∀ nd ∈ todo, P nd) : V P (announce s i k size todo) := by
  cases todo with
  | nil =>
    unfold announce
    dsimp only
    split <;> exact v_goto h i (by simp [pcNds])
  | cons nd todo =>
    unfold announce
    dsimp only
    split
    · exact v_goto h i (by simp [pcNds])
    · refine v_goto (v_see h (e := .added i nd) ?_) i (pc := .adding k todo size) (fun x hx => ht x (List.mem_cons_of_mem _ hx))
      intro x hx
      rw [show x = nd by simpa [evNds] using hx]
      exact ht nd (by simp)

theorem announce_nodes (i : Nat) (k : Kind) (size : Nat) (todo : List Nd) (s : State) : (announce s i k size todo).nodes = s.nodes ∧ (announce s i k size todo).objs = s.objs := by
  cases todo with
  | nil => unfold announce; dsimp only; split <;> exact ⟨rfl, rfl⟩
  | cons nd todo => unfold announce; dsimp only; split <;> exact ⟨rfl, rfl⟩

theorem v_enter {s : State} (h : V P s) {nd : Nd} (hn : P nd) : V P { s with objs := s.objs + 1, nodes := s.nodes.set nd.id nd } := by
  refine ⟨?_, h.pcs, h.evs⟩
  rintro ⟨k, x⟩ hk
  rcases mem_set hk with hk | ⟨rfl, rfl⟩
  · exact h.table _ hk
  · exact hn

/-- What an operation does to the table: it creates no object, or one, which is entered. -/
def Grown (a b : State) : Prop :=
  ((∀ p ∈ b.nodes, p ∈ a.nodes) ∧ b.objs = a.objs) ∨ ∃ nd, nd.obj = a.objs ∧ b.nodes = a.nodes.set nd.id nd ∧ b.objs = a.objs + 1

theorem Grown.same {a b : State} (h : b.nodes = a.nodes) (ho : b.objs = a.objs) : Grown a b := .inl ⟨fun p hp => by rwa [h] at hp, ho⟩

theorem v_answer {s : State} (h : V P s) (i : Nat) (a : Ans)
    (hnew : ∀ nd, nd.obj = s.objs → (answer s i a).nodes = s.nodes.set nd.id nd → (answer s i a).objs = s.objs + 1 → P nd) : V P (answer s i a) ∧ Grown s (answer s i a) := by
  have dflt : V P s ∧ Grown s s := ⟨h, .same rfl rfl⟩
  have fail : ∀ e, V P (s.goto i (.done (.error e))) ∧ Grown s (s.goto i (.done (.error e))) := fun e => ⟨v_goto h i (by simp [pcNds]), .same rfl rfl⟩
  have snoc : ∀ {new : List Nd} {x : Nd}, (∀ nd ∈ new, P nd) → P x → ∀ nd ∈ new ++ [x], P nd := by
    intro new x h1 h2 nd hn
    rcases List.mem_append.1 hn with hn | hn
    · exact h1 nd hn
    · rw [List.mem_singleton.1 hn]; exact h2
  have gl : ∀ {b : State} {k new rest}, b.nodes = s.nodes → b.objs = s.objs → Grown s (load b i k new rest) := by
    intro b k new rest h1 h2
    obtain ⟨g1, g2⟩ := load_nodes i k rest b new
    exact .same (g1.trans h1) (g2.trans h2)
  unfold answer at hnew ⊢
  cases hi : s.calls[i]? with
  | none => exact dflt
  | some pc =>
    have hp := h.pcs pc (List.mem_of_getElem? hi)
    rw [hi] at hnew
    cases pc with
    | list k =>
      cases a with
      | list r =>
        cases r with
        | error e => cases k <;> exact fail e
        | ok l =>
          cases k with
          | update =>
            refine ⟨v_remove _ _ _ _ (v_see h (e := .gotList i l) (by simp [evNds])), .inl ?_⟩
            exact remove_nodes _ _ _ _ _
          | startup => exact ⟨v_load _ _ _ _ _ (v_see h (e := .gotList i l) (by simp [evNds])) (by simp), gl rfl rfl⟩
      | _ => cases k <;> exact dflt
    | removing todo all l =>
      cases a with
      | asked r =>
        cases r with
        | error e => exact fail e
        | ok u => exact ⟨v_remove _ _ _ _ h, .inl (remove_nodes _ _ _ _ _)⟩
      | _ => exact dflt
    | removedAll l =>
      cases a with
      | asked r =>
        cases r with
        | error e => exact fail e
        | ok u => exact ⟨v_load _ _ _ _ _ h (by simp), gl rfl rfl⟩
      | _ => exact dflt
    | info k n rest new =>
      cases a with
      | info r =>
        cases r with
        | error e => exact fail e
        | ok x =>
          dsimp only at hnew ⊢
          have h' := v_see h (e := .gotInfo i n x) (by simp [evNds])
          split
          · exact ⟨v_goto h' i (by simp [pcNds]), .same rfl rfl⟩
          · rename_i hcl
            rw [hcl] at hnew
            dsimp only at hnew
            have hnd : P ⟨s.objs, n, 0, x⟩ := by
              refine hnew _ rfl ?_ ?_
              · split
                · rfl
                · rw [(load_nodes _ _ _ _ _).1]; rfl
              · split
                · rfl
                · rw [(load_nodes _ _ _ _ _).2]; rfl
            have h2 := v_enter h' hnd
            split
            · refine ⟨v_goto h2 i (pc := .eps _ _ _ _) ?_, .inr ⟨⟨s.objs, n, 0, x⟩, rfl, rfl, rfl⟩⟩
              intro nd hn
              rcases List.mem_cons.1 hn with rfl | hn
              · exact hnd
              · exact snoc hp hnd nd hn
            · refine ⟨v_load _ _ _ _ _ h2 (snoc hp hnd), .inr ⟨⟨s.objs, n, 0, x⟩, rfl, ?_, ?_⟩⟩
              · rw [(load_nodes _ _ _ _ _).1]; rfl
              · rw [(load_nodes _ _ _ _ _).2]; rfl
      | _ => exact dflt
    | eps k nd rest new =>
      cases a with
      | eps r =>
        cases r with
        | error e => exact fail e
        | ok c =>
          dsimp only
          have h' := v_see h (e := .gotEps i nd.root c) (by simp [evNds])
          cases c with
          | zero => exact ⟨v_load _ _ _ _ _ h' (fun x hx => hp x (List.mem_cons_of_mem _ hx)), gl rfl rfl⟩
          | succ c => exact ⟨v_goto h' i (pc := .cap _ _ _ _ _ _) hp, .same rfl rfl⟩
      | _ => exact dflt
    | cap k nd ep c rest new =>
      cases a with
      | cap r =>
        cases r with
        | error e => exact fail e
        | ok x =>
          dsimp only at hnew ⊢
          have h' := v_see h (e := .gotCap i nd.root ep x) (by simp [evNds])
          have hn' : ∀ nd' ∈ new, P nd' := fun x hx => hp x (List.mem_cons_of_mem _ hx)
          split
          · exact ⟨v_goto h' i (by simp [pcNds]), .same rfl rfl⟩
          · rename_i hcl
            rw [hcl] at hnew
            dsimp only at hnew
            cases c with
            | zero =>
              have hnd : P ⟨s.objs, nd.root, ep, x⟩ := hnew _ rfl (by rw [(load_nodes _ _ _ _ _).1]; rfl) (by rw [(load_nodes _ _ _ _ _).2]; rfl)
              refine ⟨v_load _ _ _ _ _ (v_enter h' hnd) (snoc hn' hnd), .inr ⟨⟨s.objs, nd.root, ep, x⟩, rfl, ?_, ?_⟩⟩
              · rw [(load_nodes _ _ _ _ _).1]; rfl
              · rw [(load_nodes _ _ _ _ _).2]; rfl
            | succ c =>
              have hnd : P ⟨s.objs, nd.root, ep, x⟩ := hnew _ rfl rfl rfl
              refine ⟨v_goto (v_enter h' hnd) i (pc := .cap _ _ _ _ _ _) ?_, .inr ⟨⟨s.objs, nd.root, ep, x⟩, rfl, rfl, rfl⟩⟩
              intro y hy
              rcases List.mem_cons.1 hy with rfl | hy
              · exact hp _ (List.mem_cons_self ..)
              · exact snoc hn' hnd y hy
      | _ => exact dflt
    | failed =>
      cases a with
      | failed r =>
        cases r with
        | error e => exact fail e
        | ok u =>
          refine ⟨v_goto (v_see h (e := .addedAll i _) ?_) i (by simp [pcNds]), .same rfl rfl⟩
          intro nd hn
          obtain ⟨p, hq, rfl⟩ := List.mem_map.1 hn
          exact h.table p hq
      | _ => exact dflt
    | addedAll k new =>
      cases a with
      | asked r =>
        cases r with
        | error e => cases k <;> exact fail e
        | ok u =>
          cases k with
          | update =>
            refine ⟨v_announce _ _ _ _ h hp, ?_⟩
            exact .same (announce_nodes _ _ _ _ _).1 (announce_nodes _ _ _ _ _).2
          | startup =>
            refine ⟨v_announce _ _ _ _ h ?_, .same (announce_nodes _ _ _ _ _).1 (announce_nodes _ _ _ _ _).2⟩
            intro nd hn
            obtain ⟨p, hq, rfl⟩ := List.mem_map.1 hn
            exact h.table p hq
      | _ => cases k <;> exact dflt
    | adding k todo size =>
      cases a with
      | asked r =>
        cases r with
        | error e => exact fail e
        | ok u => exact ⟨v_announce _ _ _ _ h hp, .same (announce_nodes _ _ _ _ _).1 (announce_nodes _ _ _ _ _).2⟩
      | _ => exact dflt
    | done r => cases a <;> exact dflt

theorem v_step {s : State} (h : V P s) (o : Op)
    (hnew : ∀ nd, nd.obj = s.objs → (step s o).nodes = s.nodes.set nd.id nd → (step s o).objs = s.objs + 1 → P nd) : V P (step s o) ∧ Grown s (step s o) := by
  cases o with
  | start k =>
    refine ⟨⟨h.table, ?_, h.evs⟩, .same rfl rfl⟩
    intro pc hpc
    rcases List.mem_append.1 hpc with hpc | hpc
    · exact h.pcs pc hpc
    · rw [List.mem_singleton.1 hpc]; simp [pcNds]
  | answer i a => exact v_answer h i a hnew

theorem step_trace (s : State) (o : Op) : s.trace <+: (step s o).trace := by
  cases o with
  | start k => exact List.prefix_refl _
  | answer i a => exact answer_trace s i a

end Lemmas.App

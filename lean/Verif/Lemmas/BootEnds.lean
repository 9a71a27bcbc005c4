import Verif.Lemmas.GatewayEnds
import Verif.Lemmas.Boot
/-!
# Lemmas: calls of the application get closer to their end with every answer
-/
namespace Model.App

/-- How far a call is from its end, most significant first. -/
def rank : Pc → Nat × Nat × Nat × Nat
  | .list _ => (7, 0, 0, 0)
  | .removing todo _ _ => (6, todo.length, 0, 0)
  | .removedAll _ => (5, 0, 0, 0)
  | .info _ _ rest _ => (4, rest.length, 2, 0)
  | .eps _ _ rest _ => (4, rest.length, 1, 0)
  | .cap _ _ _ count rest _ => (4, rest.length, 0, count)
  | .failed => (3, 0, 0, 0)
  | .addedAll _ _ => (2, 0, 0, 0)
  | .adding _ todo _ => (1, todo.length, 0, 0)
  | .done _ => (0, 0, 0, 0)

/-- The order. -/
def Less : Nat × Nat × Nat × Nat → Nat × Nat × Nat × Nat → Prop := (inferInstance : WellFoundedRelation (Nat × Nat × Nat × Nat)).rel

theorem less_wf : WellFounded Less := (inferInstance : WellFoundedRelation (Nat × Nat × Nat × Nat)).wf

theorem less1 {a a' : Nat} (h : a < a') (x y : Nat × Nat × Nat) : Less (a, x) (a', y) := Prod.Lex.left _ _ h
theorem less_of {x y : Nat × Nat × Nat × Nat} (h : x.1 < y.1) : Less x y := Prod.Lex.left _ _ h
theorem less2 {a b b' : Nat} (h : b < b') (x y : Nat × Nat) : Less (a, b, x) (a, b', y) := Prod.Lex.right _ (Prod.Lex.left _ _ h)
theorem less3 {a b c c' : Nat} (h : c < c') (x y : Nat) : Less (a, b, c, x) (a, b, c', y) := Prod.Lex.right _ (Prod.Lex.right _ (Prod.Lex.left _ _ h))
theorem less4 {a b c d d' : Nat} (h : d < d') : Less (a, b, c, d) (a, b, c, d') := Prod.Lex.right _ (Prod.Lex.right _ (Prod.Lex.right _ h))

/-- The answer is one to what the call waits for. -/
def Fits : Pc → Ans → Prop
  | .list _, .list _ => True
  | .info _ _ _ _, .info _ => True
  | .eps _ _ _ _, .eps _ => True
  | .cap _ _ _ _ _ _, .cap _ => True
  | .failed, .failed _ => True
  | .removing _ _ _, .asked _ => True
  | .removedAll _, .asked _ => True
  | .addedAll _ _, .asked _ => True
  | .adding _ _ _, .asked _ => True
  | _, _ => False

/-- Call `i` is where `P` holds. -/
def At (i : Nat) (P : Pc → Prop) (s : State) : Prop := ∃ pc, s.calls[i]? = some pc ∧ P pc

theorem at_goto {s : State} {i : Nat} (hi : i < s.calls.length) {P : Pc → Prop} {pc : Pc} (h : P pc) : At i P (s.goto i pc) :=
  ⟨pc, List.getElem?_set_self hi, h⟩

/-- After the loop over the nodes `rest`. -/
theorem at_load (i : Nat) (k : Kind) (rest : List Nat) : ∀ (s : State) (new : List Nd), i < s.calls.length →
    At i (fun pc => (rank pc).1 < 4 ∨ ∃ n rest' new', pc = .info k n rest' new' ∧ rest'.length < rest.length) (load s i k new rest) := by
  induction rest with
  | nil =>
    intro s new hi
    cases k with
    | update =>
      simp only [load]
      split
      · exact at_goto hi (.inl (by simp [rank]))
      · exact at_goto (s := s.see _) hi (.inl (by simp [rank]))
    | startup => exact at_goto hi (.inl (by simp [rank]))
  | cons n rest ih =>
    intro s new hi
    have up : At i (fun pc => (rank pc).1 < 4 ∨ ∃ n rest' new', pc = .info k n rest' new' ∧ rest'.length < (n :: rest).length) (load s i k new rest) := by
      obtain ⟨pc, h1, h2 | ⟨m, r', n', h2, h3⟩⟩ := ih s new hi
      · exact ⟨pc, h1, .inl h2⟩
      · exact ⟨pc, h1, .inr ⟨m, r', n', h2, Nat.lt_succ_of_lt h3⟩⟩
    simp only [load]
    split
    · exact up
    · split
      · exact up
      · exact at_goto hi (.inr ⟨n, rest, new, rfl, Nat.lt_succ_self _⟩)

theorem At.imp {i : Nat} {P Q : Pc → Prop} {s : State} (h : At i P s) (f : ∀ pc, P pc → Q pc) : At i Q s := by
  obtain ⟨pc, h1, h2⟩ := h
  exact ⟨pc, h1, f pc h2⟩

theorem loaded_less {k : Kind} {rest : List Nat} {c d : Nat} {pc : Pc} (h : (rank pc).1 < 4 ∨ ∃ n rest' new', pc = .info k n rest' new' ∧ rest'.length < rest.length) :
    Less (rank pc) (4, rest.length, c, d) := by
  rcases h with h | ⟨n, r', n', rfl, h⟩
  · exact less_of h
  · exact less2 h _ _

theorem loaded_less' {k : Kind} {rest : List Nat} {a : Nat} {x : Nat × Nat × Nat} {pc : Pc} (ha : 4 < a)
    (h : (rank pc).1 < 4 ∨ ∃ n rest' new', pc = .info k n rest' new' ∧ rest'.length < rest.length) : Less (rank pc) (a, x) := by
  rcases h with h | ⟨n, r', n', rfl, h⟩
  · exact less_of (by show _ < a; omega)
  · exact less1 ha _ _

theorem at_remove (i : Nat) (all : List Str) (l : List Nat) (todo : List Str) (s : State) (hi : i < s.calls.length) :
    At i (fun pc => (rank pc).1 < 6 ∨ ∃ todo', pc = .removing todo' all l ∧ todo'.length < todo.length) (remove s i all l todo) := by
  cases todo with
  | nil =>
    simp only [remove]
    split
    · refine (at_load i .update l s [] hi).imp fun pc h => .inl ?_
      rcases h with h | ⟨_, _, _, rfl, -⟩
      · omega
      · simp [rank]
    · exact at_goto (s := s.see _) hi (.inl (by simp [rank]))
  | cons k todo =>
    simp only [remove]
    split
    · refine at_goto ?_ (Or.inr ⟨todo, rfl, Nat.lt_succ_self _⟩) <;> exact hi
    · exact at_goto hi (.inl (by simp [rank]))

theorem at_announce (i : Nat) (k : Kind) (size : Nat) (todo : List Nd) (s : State) (hi : i < s.calls.length) :
    At i (fun pc => (rank pc).1 < 1 ∨ ∃ todo', pc = .adding k todo' size ∧ todo'.length < todo.length) (announce s i k size todo) := by
  cases todo with
  | nil =>
    simp only [announce]
    split <;> exact at_goto hi (.inl (by simp [rank]))
  | cons k todo =>
    simp only [announce]
    split
    · exact at_goto hi (.inl (by simp [rank]))
    · exact at_goto (s := s.see _) hi (.inr ⟨todo, rfl, Nat.lt_succ_self _⟩)

/-- With every answer the call gets closer to its end. -/
theorem answer_less (s : State) (i : Nat) (a : Ans) (pc : Pc) (h : s.calls[i]? = some pc) (hf : Fits pc a) : At i (fun pc' => Less (rank pc') (rank pc)) (answer s i a) := by
  have hi := (List.getElem?_eq_some_iff.mp h).1
  have err : ∀ (s : State) (e : PyErr), i < s.calls.length → 0 < (rank pc).1 → At i (fun pc' => Less (rank pc') (rank pc)) (s.goto i (.done (.error e))) := fun s e hi h0 =>
    at_goto hi (less1 h0 _ _)
  cases pc with
  | list k =>
    cases a with
    | list r =>
      cases r with
      | error e => simp only [answer, h]; exact err s e hi (by simp [rank])
      | ok l =>
        cases k with
        | update =>
          simp only [answer, h]
          refine (at_remove i _ l _ (s.see _) hi).imp fun pc' hp => ?_
          rcases hp with hp | ⟨_, rfl, -⟩
          · exact less_of (by show _ < 7; omega)
          · exact less1 (by omega) _ _
        | startup =>
          simp only [answer, h]
          exact (at_load i _ l (s.see _) _ hi).imp fun pc' hp => loaded_less' (by omega) hp
    | _ => cases hf
  | removing todo all l =>
    cases a with
    | asked r =>
      cases r with
      | error e => simp only [answer, h]; exact err s e hi (by simp [rank])
      | ok _ =>
        simp only [answer, h]
        refine (at_remove i _ l _ s hi).imp fun pc' hp => ?_
        rcases hp with hp | ⟨_, rfl, hp⟩
        · exact less_of hp
        · exact less2 hp _ _
    | _ => cases hf
  | removedAll l =>
    cases a with
    | asked r =>
      cases r with
      | error e => simp only [answer, h]; exact err s e hi (by simp [rank])
      | ok _ =>
        simp only [answer, h]
        exact (at_load i _ l s _ hi).imp fun pc' hp => loaded_less' (by omega) hp
    | _ => cases hf
  | info k n rest new =>
    cases a with
    | info r =>
      cases r with
      | error e => simp only [answer, h]; exact err s e hi (by simp [rank])
      | ok x =>
        simp only [answer, h]
        split
        · exact err (s.see _) _ hi (by simp [rank])
        · split
          · exact at_goto hi (less3 (by omega) _ _)
          · refine (at_load i _ rest _ _ ?_).imp fun pc' hp => loaded_less hp
            exact hi
    | _ => cases hf
  | eps k nd rest new =>
    cases a with
    | eps r =>
      cases r with
      | error e => simp only [answer, h]; exact err s e hi (by simp [rank])
      | ok x =>
        simp only [answer, h]
        split
        · refine (at_load i _ rest _ _ ?_).imp fun pc' hp => loaded_less hp
          exact hi
        · exact at_goto hi (less3 (by omega) _ _)
    | _ => cases hf
  | cap k nd ep count rest new =>
    cases a with
    | cap r =>
      cases r with
      | error e => simp only [answer, h]; exact err s e hi (by simp [rank])
      | ok x =>
        simp only [answer, h]
        split
        · exact err (s.see _) _ hi (by simp [rank])
        · split
          · refine (at_load i _ rest _ _ ?_).imp fun pc' hp => loaded_less hp
            exact hi
          · exact at_goto hi (less4 (by omega))
    | _ => cases hf
  | failed =>
    cases a with
    | failed r =>
      cases r with
      | error e => simp only [answer, h]; exact err s e hi (by simp [rank])
      | ok x => simp only [answer, h]; exact at_goto hi (less1 (by omega) _ _)
    | _ => cases hf
  | addedAll k new =>
    cases a with
    | asked r =>
      cases r with
      | error e => simp only [answer, h]; exact err s e hi (by simp [rank])
      | ok x =>
        have fin : ∀ size todo, At i (fun pc' => Less (rank pc') (rank (.addedAll k new))) (announce s i k size todo) := fun size todo => by
          refine (at_announce i k size todo s hi).imp fun pc' hp => ?_
          rcases hp with hp | ⟨_, rfl, hp⟩
          · exact less_of (by show _ < 2; omega)
          · exact less1 (by omega) _ _
        cases k <;> simp only [answer, h] <;> exact fin _ _
    | _ => cases hf
  | adding k todo size =>
    cases a with
    | asked r =>
      cases r with
      | error e => simp only [answer, h]; exact err s e hi (by simp [rank])
      | ok x =>
        simp only [answer, h]
        refine (at_announce i k size todo s hi).imp fun pc' hp => ?_
        rcases hp with hp | ⟨_, rfl, hp⟩
        · exact less_of hp
        · exact less2 hp _ _
    | _ => cases hf
  | done r => cases a <;> cases hf

end Model.App

namespace Model.Boot
open Spec.Silence
open Model.App (Pc Ans Fits rank Less At)

theorem nm_jobs (g : Gateway.State) (c : Gateway.Nm) : (Gateway.step g (.nm c)).jobs.length = g.jobs.length + 1 := by
  simp only [Gateway.step, Gateway.State.addJob, List.length_append, List.length_cons, List.length_nil, Gateway.startNm_keeps]

theorem gw_jobs (l : List Gateway.Op) : ∀ g : Gateway.State, g.jobs.length ≤ (Gateway.run g l).jobs.length := by
  induction l with
  | nil => intro g; exact Nat.le_refl _
  | cons o l ih =>
    intro g
    refine Nat.le_trans ?_ (ih _)
    rcases Gateway.step_keeps g o with e | ⟨j, -, e | ⟨a, e⟩⟩ <;> rw [e] <;> simp

/-- Calls that ask the gateway wait for the coroutine that was started for them, and the others for none. -/
structure Linked (g : List Gateway.Op) (s : State) : Prop where
  gw : s.gw = Gateway.run Gateway.init g
  back : Waits g s
  asks : ∀ i pc c, s.app.calls[i]? = some pc → query pc = some c → ∃ j, s.waits i = some j

theorem linked_issue {g : List Gateway.Op} {s : State} (i : Nat) (hg : s.gw = Gateway.run Gateway.init g)
    (hw : ∀ i' j, i' ≠ i → s.waits i' = some j → ∃ pc c g1 g2, s.app.calls[i']? = some pc ∧ query pc = some c ∧ g = g1 ++ .nm c :: g2 ∧ (Gateway.run Gateway.init g1).jobs.length = j)
    (ha : ∀ i' pc c, i' ≠ i → s.app.calls[i']? = some pc → query pc = some c → ∃ j, s.waits i' = some j) : ∃ g', Linked g' (issue s i) := by
  unfold issue
  split
  · rename_i hn
    refine ⟨g, hg, ?_, ?_⟩
    · intro i' j hj
      dsimp only at hj ⊢
      split at hj
      · cases hj
      · rename_i hne; exact hw i' j hne hj
    · intro i' pc c hpc hq
      dsimp only at hpc ⊢
      split
      · rename_i he
        subst he
        rw [hpc] at hn
        simp only [Option.bind_some, hq] at hn
        cases hn
      · rename_i hne; exact ha i' pc c hne hpc hq
  · rename_i c hc
    obtain ⟨pc, hpc, hq⟩ := Option.bind_eq_some_iff.mp hc
    refine ⟨g ++ [.nm c], by rw [Gateway.run_snoc, hg], ?_, ?_⟩
    · intro i' j hj
      dsimp only at hj ⊢
      split at hj
      · rename_i he
        subst he
        cases hj
        exact ⟨pc, c, g, [], hpc, hq, rfl, by rw [hg]⟩
      · rename_i hne
        obtain ⟨pc', c', g1, g2, h1, h2, h3, h4⟩ := hw i' j hne hj
        exact ⟨pc', c', g1, g2 ++ [.nm c], h1, h2, by rw [h3]; simp, h4⟩
    · intro i' pc' c' hpc' hq'
      dsimp only at hpc' ⊢
      split
      · exact ⟨_, rfl⟩
      · rename_i hne; exact ha i' pc' c' hne hpc' hq'

theorem linked_goOn {g : List Gateway.Op} {s : State} (h : Linked g s) (i : Nat) (a : Ans) : ∃ g', Linked g' (goOn s i a) := by
  have ho := Lemmas.App.only_answer { s.app with own := ownId s.gw } i a
  refine linked_issue i h.gw ?_ ?_
  · intro i' j hne hj
    obtain ⟨pc, c, g1, g2, h1, h2, h3, h4⟩ := h.back i' j hj
    exact ⟨pc, c, g1, g2, by dsimp only; rw [ho.2 i' hne]; exact h1, h2, h3, h4⟩
  · intro i' pc c hne hp hq
    dsimp only at hp
    rw [ho.2 i' hne] at hp
    exact h.asks i' pc c hp hq

theorem linked_begin {g : List Gateway.Op} {s : State} (h : Linked g s) (k : App.Kind) : ∃ g', Linked g' (begin s k) := by
  refine linked_issue _ h.gw ?_ ?_
  · intro i' j _ hj
    obtain ⟨pc, c, g1, g2, h1, h2, h3, h4⟩ := h.back i' j hj
    refine ⟨pc, c, g1, g2, ?_, h2, h3, h4⟩
    simp only [App.step]
    rw [List.getElem?_append_left (List.getElem?_eq_some_iff.mp h1).1]
    exact h1
  · intro i' pc c hne hp hq
    simp only [App.step] at hp
    rcases Nat.lt_or_ge i' s.app.calls.length with hi | hi
    · rw [List.getElem?_append_left hi] at hp; exact h.asks i' pc c hp hq
    · rw [List.getElem?_append_right hi, List.getElem?_eq_none (by simp only [List.length_cons, List.length_nil]; omega)] at hp
      cases hp

theorem linked_step {g : List Gateway.Op} {s : State} (h : Linked g s) (o : Op) : ∃ g', Linked g' (step s o) := by
  cases o with
  | startup => exact linked_begin h .startup
  | update =>
    simp only [step]
    split
    · exact linked_begin (s := { s with updates := s.updates + 1 }) ⟨h.gw, h.back, h.asks⟩ .update
    · exact ⟨g, h⟩
  | asked i r =>
    simp only [step]
    split
    · exact linked_goOn h i _
    · exact ⟨g, h⟩
  | gw o =>
    refine ⟨g ++ [o], by simp only [step]; rw [Gateway.run_snoc, h.gw], ?_, h.asks⟩
    intro i j hj
    obtain ⟨pc, c, g1, g2, h1, h2, h3, h4⟩ := h.back i j hj
    exact ⟨pc, c, g1, g2 ++ [o], h1, h2, by rw [h3]; simp, h4⟩
  | resume i order =>
    simp only [step]
    split
    · split
      · split
        · exact linked_goOn h i _
        · exact ⟨g, h⟩
      · exact ⟨g, h⟩
    · exact ⟨g, h⟩

theorem linked_run (ops : List Op) : ∃ g, Linked g (run init ops) := by
  induction ops using Conn.snoc_ind with
  | nil =>
    refine ⟨[], ⟨rfl, fun i j hj => ?_, fun i pc c hp => ?_⟩⟩
    · cases hj
    · simp [run, init, App.fresh] at hp
  | snoc ops o ih =>
    obtain ⟨g, h⟩ := ih
    rw [run_snoc]
    exact linked_step h o

/-- What a query returns can be used by the call that asked. -/
theorem usable (g1 g2 : List Gateway.Op) (pc : Pc) (c : Gateway.Nm) (hq : query pc = some c) (r : Py Gateway.Ret)
    (hr : (Gateway.run Gateway.init (g1 ++ .nm c :: g2)).jobs[(Gateway.run Gateway.init g1).jobs.length]? = some (.done r)) : ∃ a, answerOf pc r [] = some a ∧ Fits pc a := by
  rw [Gateway.run_append] at hr
  have hr : (Gateway.run (Gateway.step (Gateway.run Gateway.init g1) (.nm c)) g2).jobs[(Gateway.run Gateway.init g1).jobs.length]? = some (.done r) := hr
  cases pc with
  | list k =>
    cases hq
    cases r with
    | error e => exact ⟨_, rfl, trivial⟩
    | ok x =>
      have : ∃ l, x = .nodes l := by
        by_cases hn : (Gateway.run Gateway.init g1).nodes = []
        · rcases Props.GatewayCalls.C87_list g1 g2 x hn hr with rfl | ⟨b, m, l, -, -, -, -, rfl⟩
          · exact ⟨_, rfl⟩
          · exact ⟨_, rfl⟩
        · have h0 := (Props.GatewayCalls.C87_cached _ hn).1
          have h1 := Gateway.done_run g2 (Gateway.step (Gateway.run Gateway.init g1) (.nm .getNodeList)) (i := (Gateway.run Gateway.init g1).jobs.length)
            (r := .ok (.nodes (Gateway.run Gateway.init g1).nodes.keys)) (by rw [h0, List.getElem?_append_right (Nat.le_refl _), Nat.sub_self]; rfl)
          rw [hr] at h1
          cases h1
          exact ⟨_, rfl⟩
      obtain ⟨l, rfl⟩ := this
      exact ⟨_, rfl, trivial⟩
  | info k n rest new =>
    cases hq
    cases r with
    | error e => exact ⟨_, rfl, trivial⟩
    | ok x =>
      rcases Props.GatewayCalls.C87_result g1 g2 _ 0x5204 x rfl hr with h | ⟨b, m, -, -, -, h⟩
      · cases h; exact ⟨_, rfl, trivial⟩
      · cases h; exact ⟨_, rfl, trivial⟩
  | eps k nd rest new =>
    cases hq
    cases r with
    | error e => exact ⟨_, rfl, trivial⟩
    | ok x =>
      rcases Props.GatewayCalls.C87_result g1 g2 _ 0x5206 x rfl hr with h | ⟨b, m, -, -, -, u, v, -, -, h⟩
      · cases h; exact ⟨_, rfl, trivial⟩
      · cases h; exact ⟨_, rfl, trivial⟩
  | cap k nd ep count rest new =>
    cases hq
    cases r with
    | error e => exact ⟨_, rfl, trivial⟩
    | ok x =>
      rcases Props.GatewayCalls.C87_result g1 g2 _ 0x5208 x rfl hr with h | ⟨b, m, -, -, -, h⟩
      · cases h; exact ⟨_, rfl, trivial⟩
      · cases h; exact ⟨_, rfl, trivial⟩
  | failed =>
    cases hq
    cases r with
    | error e => exact ⟨_, rfl, trivial⟩
    | ok x =>
      rcases Props.GatewayCalls.C87_result g1 g2 _ 0x520C x rfl hr with h | ⟨b, m, -, -, -, h⟩
      · cases h; exact ⟨_, rfl, trivial⟩
      · cases h
        generalize getAttr registry m "failedNodeList" = v
        cases v with
        | none => exact ⟨_, rfl, trivial⟩
        | some v => exact ⟨_, rfl, trivial⟩
  | _ => cases hq

theorem gw_turns (os : List Gateway.Op) : ∀ s : State, run s (os.map .gw) = { s with gw := Gateway.run s.gw os } := by
  induction os with
  | nil => intro s; rfl
  | cons o os ih => intro s; rw [List.map_cons, run_cons, ih]; rfl

theorem issue_app (s : State) (i : Nat) : (issue s i).app = s.app := by
  unfold issue
  split <;> rfl

/-- A call can end. -/
theorem call_ends (ok : Bool) (x : Py Unit) (i : Nat) (m : Nat × Nat × Nat × Nat) : ∀ (ops : List Op) (pc : Pc), rank pc = m → (run init ops).app.calls[i]? = some pc →
    ∃ l, (∀ o ∈ l, bootTurn ok x o = true) ∧ ∃ r, (run init (ops ++ l)).app.calls[i]? = some (.done r) := by
  induction m using App.less_wf.induction with
  | _ m ih =>
    intro ops pc hm hc
    subst hm
    -- with an answer
    have go : ∀ (l : List Op) (a : Ans), (∀ o ∈ l, bootTurn ok x o = true) → (∃ s, run init (ops ++ l) = goOn s i a ∧ s.app.calls[i]? = some pc) → Fits pc a →
        ∃ l, (∀ o ∈ l, bootTurn ok x o = true) ∧ ∃ r, (run init (ops ++ l)).app.calls[i]? = some (.done r) := by
      intro l a hl ⟨s, hs, hp⟩ hf
      obtain ⟨pc', h1, h2⟩ := App.answer_less { s.app with own := ownId s.gw } i a pc hp hf
      obtain ⟨l', h3, r, h4⟩ := ih _ h2 (ops ++ l) pc' rfl (by rw [hs, goOn, issue_app]; exact h1)
      refine ⟨l ++ l', fun o ho => ?_, r, by rw [← List.append_assoc]; exact h4⟩
      rcases List.mem_append.mp ho with ho | ho
      · exact hl o ho
      · exact h3 o ho
    obtain ⟨g, hl⟩ := linked_run ops
    cases hq : query pc with
    | none =>
      have hn : (run init ops).waits i = none := by
        cases hw : (run init ops).waits i with
        | none => rfl
        | some j =>
          obtain ⟨pc', c, -, -, h1, h2, -⟩ := hl.back i j hw
          rw [hc] at h1; cases h1
          rw [hq] at h2; cases h2
      have asks : Fits pc (.asked x) → ∃ l, (∀ o ∈ l, bootTurn ok x o = true) ∧ ∃ r, (run init (ops ++ l)).app.calls[i]? = some (.done r) := fun hf =>
        go [.asked i x] (.asked x) (by simp [bootTurn]) ⟨run init ops, by rw [run_snoc]; simp only [step, hn], hc⟩ hf
      cases pc with
      | done r => exact ⟨[], by simp, r, by rw [List.append_nil]; exact hc⟩
      | removing _ _ _ => exact asks trivial
      | removedAll _ => exact asks trivial
      | addedAll _ _ => exact asks trivial
      | adding _ _ _ => exact asks trivial
      | _ => cases hq
    | some c =>
      obtain ⟨j, hj⟩ := hl.asks i pc c hc hq
      obtain ⟨pc', c', g1, g2, h1, h2, h3, h4⟩ := hl.back i j hj
      rw [hc] at h1; cases h1
      rw [hq] at h2; cases h2
      have hlen : j < (Gateway.run Gateway.init g).jobs.length := by
        have := gw_jobs g2 (Gateway.step (Gateway.run Gateway.init g1) (.nm c))
        rw [nm_jobs] at this
        rw [h3, Gateway.run_append]
        show j < (Gateway.run (Gateway.step (Gateway.run Gateway.init g1) (.nm c)) g2).jobs.length
        omega
      obtain ⟨os, t1, r, t2⟩ := Gateway.job_ends ok g hlen
      obtain ⟨a, ha, hf⟩ := usable g1 (g2 ++ os) pc c hq r (by rw [h4]; rw [h3] at t2; simpa using t2)
      refine go (os.map .gw ++ [.resume i []]) a ?_ ⟨{ run init ops with gw := Gateway.run (run init ops).gw os }, ?_, hc⟩ hf
      · intro o ho
        rcases List.mem_append.mp ho with ho | ho
        · obtain ⟨y, hy, rfl⟩ := List.mem_map.mp ho
          exact t1 y hy
        · simp at ho; subst ho; rfl
      · rw [← List.append_assoc, run_snoc, run_append, gw_turns]
        have t3 : (Gateway.run (run init ops).gw os).jobs[j]? = some (.done r) := by rw [hl.gw, ← Gateway.run_append]; exact t2
        simp only [step, hc, hj, t3, ha]

theorem issue_gw_calls (s : State) (i : Nat) (a : Ans) : (goOn s i a).app.calls.length = s.app.calls.length := by
  rw [goOn, issue_app]
  exact (Lemmas.App.only_answer { s.app with own := ownId s.gw } i a).1

/-- The turns make no calls. -/
theorem turn_calls {ok : Bool} {x : Py Unit} (s : State) (o : Op) (h : bootTurn ok x o = true) : (step s o).app.calls.length = s.app.calls.length := by
  cases o with
  | resume i order =>
    simp only [step]
    split
    · split
      · split
        · exact issue_gw_calls s i _
        · rfl
      · rfl
    · rfl
  | asked i r =>
    simp only [step]
    split
    · exact issue_gw_calls s i _
    · rfl
  | gw o => rfl
  | _ => cases h

/-- Calls that have ended stay so. -/
theorem done_goOn (s : State) (i j : Nat) (a : Ans) {r : Py Unit} (h : s.app.calls[j]? = some (.done r)) : (goOn s i a).app.calls[j]? = some (.done r) := by
  rw [goOn, issue_app]
  by_cases e : j = i
  · subst e
    have : App.answer { s.app with own := ownId s.gw } j a = { s.app with own := ownId s.gw } := by
      have h' : ({ s.app with own := ownId s.gw } : App.State).calls[j]? = some (.done r) := h
      unfold App.answer
      rw [h']
    rw [this]
    exact h
  · rw [(Lemmas.App.only_answer { s.app with own := ownId s.gw } i a).2 j e]
    exact h

theorem done_step (s : State) (o : Op) (j : Nat) {r : Py Unit} (h : s.app.calls[j]? = some (.done r)) : (step s o).app.calls[j]? = some (.done r) := by
  have new : ∀ (s : State) k, s.app.calls[j]? = some (.done r) → (begin s k).app.calls[j]? = some (.done r) := by
    intro s k h
    rw [begin, issue_app]
    simp only [App.step]
    rw [List.getElem?_append_left (List.getElem?_eq_some_iff.mp h).1]
    exact h
  cases o with
  | startup => exact new s _ h
  | update =>
    simp only [step]
    split
    · exact new _ _ h
    · exact h
  | resume i order =>
    simp only [step]
    split
    · split
      · split
        · exact done_goOn s i j _ h
        · exact h
      · exact h
    · exact h
  | asked i x =>
    simp only [step]
    split
    · exact done_goOn s i j _ h
    · exact h
  | gw o => exact h

theorem turns_calls {ok : Bool} {x : Py Unit} (l : List Op) : ∀ s : State, (∀ o ∈ l, bootTurn ok x o = true) → (run s l).app.calls.length = s.app.calls.length := by
  induction l with
  | nil => intro s _; rfl
  | cons o l ih =>
    intro s h
    rw [run_cons, ih _ fun y hy => h y (List.mem_cons_of_mem _ hy), turn_calls s o (h o (List.mem_cons_self ..))]

theorem done_run (l : List Op) (j : Nat) {r : Py Unit} : ∀ s : State, s.app.calls[j]? = some (.done r) → (run s l).app.calls[j]? = some (.done r) := by
  induction l with
  | nil => intro s h; exact h
  | cons o l ih => intro s h; exact ih _ (done_step s o j h)

end Model.Boot

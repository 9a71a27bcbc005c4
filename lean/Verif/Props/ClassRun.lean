import Verif.Spec.ClassRun
import Verif.Props.Body
import Verif.Lemmas.Conn
import Verif.Lemmas.Dict
/-!
# Property theorems C149, C150: what an interviewed class holds
-/
namespace Props.ClassRun
open Model Model.Body Model.ClassRun
open Model.Listen (Ret)

/-! ## Programs in steps -/

/-- `p` with attributes `s` becomes `p'` with `s'`; while it waits the attributes become anything. -/
inductive Path {σ : Type} : Prog σ → σ → List Item → Prog σ → σ → Prop
  | nil {p : Prog σ} {s : σ} : Path p s [] p s
  | look {k : σ → Prog σ} {s : σ} {l : List Item} {p' : Prog σ} {s' : σ} : Path (k s) s l p' s' → Path (.look k) s l p' s'
  | write {f : σ → σ} {p : Prog σ} {s : σ} {l : List Item} {p' : Prog σ} {s' : σ} : Path p (f s) l p' s' → Path (.write f p) s l p' s'
  | ask {q : Query} {k : Py Msg → Prog σ} {s : σ} {r : Py Msg} {t : σ} {l : List Item} {p' : Prog σ} {s' : σ} : Path (k r) t l p' s' → Path (.ask q k) s (.asked q (some r) :: l) p' s'
  | send {c : Command} {k : Py Bool → Prog σ} {s : σ} {r : Py Bool} {t : σ} {l : List Item} {p' : Prog σ} {s' : σ} : Path (k r) t l p' s' → Path (.send c k) s (.sent c (some r) :: l) p' s'

theorem Path.trans {σ : Type} {p p' p'' : Prog σ} {s s' s'' : σ} {l l' : List Item} (h : Path p s l p' s') (h' : Path p' s' l' p'' s'') : Path p s (l ++ l') p'' s'' := by
  induction h with
  | nil => exact h'
  | look _ ih => exact .look (ih h')
  | write _ ih => exact .write (ih h')
  | ask _ ih => exact .ask (ih h')
  | send _ ih => exact .send (ih h')

theorem Path.exec {σ : Type} {p p' : Prog σ} {s s' : σ} {l : List Item} (h : Path p s l p' s') : ∀ r, p' = .ret r → ∃ xs, Body.exec p s xs = ⟨s', l, some r⟩ := by
  induction h with
  | nil => intro r hr; subst hr; exact ⟨[], rfl⟩
  | look _ ih => intro r hr; obtain ⟨xs, h⟩ := ih r hr; exact ⟨xs, by simp only [Body.exec]; exact h⟩
  | write _ ih => intro r hr; obtain ⟨xs, h⟩ := ih r hr; exact ⟨xs, by simp only [Body.exec]; exact h⟩
  | @ask q k s x t l p' s' _ ih => intro r hr; obtain ⟨xs, h⟩ := ih r hr; exact ⟨⟨fun _ => t, x, .ok true⟩ :: xs, by simp only [Body.exec, h]; rfl⟩
  | @send c k s x t l p' s' _ ih => intro r hr; obtain ⟨xs, h⟩ := ih r hr; exact ⟨⟨fun _ => t, .error .timeout, x⟩ :: xs, by simp only [Body.exec, h]; rfl⟩

theorem path_pause {σ : Type} (p : Prog σ) : ∀ s, Path p s [] (pause p s).2 (pause p s).1 := by
  induction p with
  | ret r => intro s; exact .nil
  | ask q k => intro s; exact .nil
  | send c k => intro s; exact .nil
  | look k ih => intro s; exact .look (ih s s)
  | write f p ih => intro s; exact .write (ih (f s))

/-- It waits. -/
def Waits {σ : Type} : Prog σ → Prop
  | .ask _ _ | .send _ _ => True
  | _ => False

theorem pause_waits {σ : Type} (p : Prog σ) : ∀ s, Waits (pause p s).2 ∨ ∃ r, (pause p s).2 = .ret r := by
  induction p with
  | ret r => intro s; exact .inr ⟨r, rfl⟩
  | ask q k => intro s; exact .inl trivial
  | send c k => intro s; exact .inl trivial
  | look k ih => intro s; exact ih s s
  | write f p ih => intro s; exact ih (f s)

/-! ## The decorator -/

theorem calls_set {d : Interview.State} {i j : Nat} {x : Interview.Call} {n : Nat} {b : Bool} {t : Nat} :
    pcOf ⟨d.id, n, b, d.calls.set i x, t⟩ j = if j = i ∧ i < d.calls.length then some x.pc else pcOf d j := by
  simp only [pcOf, List.getElem?_set]
  split
  · rename_i h; subst h
    split
    · simp [*]
    · rename_i h; simp [h]
  · rename_i h
    rw [if_neg fun e => h e.1.symm]

theorem pc_lt {d : Interview.State} {i : Nat} {p : Interview.Pc} (h : pcOf d i = some p) : i < d.calls.length := by
  rcases Nat.lt_or_ge i d.calls.length with h' | h'
  · exact h'
  · simp [pcOf, List.getElem?_eq_none h'] at h

theorem pcOf_some {d : Interview.State} {i : Nat} {c : Interview.Call} (h : d.calls[i]? = some c) : pcOf d i = some c.pc := by simp [pcOf, h]

/-- A call that has ended without an interview. -/
def Bare (p : Interview.Pc) : Prop := ∃ how r, p = .done how r ∧ how ≠ .finished

theorem begins (d : Interview.State) (o : Interview.Op) (ho : o = .interview ∨ o = .requestVersion) :
    (∀ j, j ≠ d.calls.length → pcOf (Interview.step d o) j = pcOf d j) ∧ (Interview.step d o).calls.length = d.calls.length + 1 ∧
    ((Interview.step d o).interviewed = true → d.interviewed = true) ∧
    (pcOf (Interview.step d o) d.calls.length = some .version ∨ (o = .interview ∧ pcOf (Interview.step d o) d.calls.length = some .body) ∨
      ∃ p, pcOf (Interview.step d o) d.calls.length = some p ∧ Bare p) := by
  have key : ∀ (x : Interview.Call) (b : Bool),
      (∀ j, j ≠ d.calls.length → pcOf { d with interviewed := b, calls := d.calls ++ [x] } j = pcOf d j) ∧ pcOf { d with interviewed := b, calls := d.calls ++ [x] } d.calls.length = some x.pc := by
    intro x b
    constructor
    · intro j hj
      simp only [pcOf]
      rcases Nat.lt_trichotomy j d.calls.length with h | h | h
      · rw [List.getElem?_append_left h]
      · exact absurd h hj
      · rw [List.getElem?_eq_none (by simp; omega), List.getElem?_eq_none (by omega)]
    · simp [pcOf]
  rcases ho with rfl | rfl
  · simp only [Interview.step]
    split
    · split
      · exact ⟨(key _ _).1, by simp, id, .inr (.inr ⟨_, (key _ _).2, _, _, rfl, by simp⟩)⟩
      · exact ⟨(key _ _).1, by simp, id, .inl (key _ _).2⟩
    · exact ⟨(key _ _).1, by simp, by simp, .inr (.inl ⟨by trivial, (key _ _).2⟩)⟩
  · simp only [Interview.step]
    split
    · exact ⟨(key _ _).1, by simp, id, .inr (.inr ⟨_, (key _ _).2, _, _, rfl, by simp⟩)⟩
    · exact ⟨(key _ _).1, by simp, id, .inl (key _ _).2⟩

theorem answered (d : Interview.State) (i : Nat) (r : Py Nat) :
    (∀ j, j ≠ i → pcOf (Interview.step d (.versionAnswer i r)) j = pcOf d j) ∧ (Interview.step d (.versionAnswer i r)).calls.length = d.calls.length ∧
    ((Interview.step d (.versionAnswer i r)).interviewed = true → d.interviewed = true) ∧
    (pcOf (Interview.step d (.versionAnswer i r)) i = pcOf d i ∨ (pcOf d i = some .version ∧ (pcOf (Interview.step d (.versionAnswer i r)) i = some .body ∨
      ∃ p, pcOf (Interview.step d (.versionAnswer i r)) i = some p ∧ Bare p))) := by
  have key : ∀ (n : Nat) (b : Bool) (t : Nat) (x : Interview.Call), (∀ j, j ≠ i → pcOf ⟨d.id, n, b, d.calls.set i x, t⟩ j = pcOf d j) ∧
      (i < d.calls.length → pcOf ⟨d.id, n, b, d.calls.set i x, t⟩ i = some x.pc) := by
    intro n b t x
    constructor
    · intro j hj; rw [calls_set, if_neg fun e => hj e.1]
    · intro h; rw [calls_set, if_pos ⟨rfl, h⟩]
  cases hc : d.calls[i]? with
  | none => simp [Interview.step, hc]
  | some c =>
    have hlt := pc_lt (pcOf_some hc)
    by_cases hp : c.pc = .version
    · have hv : pcOf d i = some .version := by rw [pcOf_some hc, hp]
      cases r with
      | error e =>
        have hb : ∀ how (x : Py Ret), how ≠ .finished → Bare (.done how x) := fun how x h => ⟨how, x, rfl, h⟩
        cases e <;> simp only [Interview.step, hc, if_pos hp] <;> refine ⟨(key _ _ _ _).1, by simp, id, .inr ⟨hv, .inr ⟨_, (key _ _ _ _).2 hlt, ?_⟩⟩⟩
        all_goals first
          | (split <;> exact hb _ _ (by simp))
          | exact hb _ _ (by simp)
      | ok v =>
        simp only [Interview.step, hc, if_pos hp]
        split
        · exact ⟨(key _ _ _ _).1, by simp, id, .inr ⟨hv, .inr ⟨_, (key _ _ _ _).2 hlt, _, _, rfl, by simp⟩⟩⟩
        · split
          · exact ⟨(key _ _ _ _).1, by simp, id, .inr ⟨hv, .inr ⟨_, (key _ _ _ _).2 hlt, _, _, rfl, by simp⟩⟩⟩
          · exact ⟨(key _ _ _ _).1, by simp, by simp, .inr ⟨hv, .inl ((key _ _ _ _).2 hlt)⟩⟩
    · simp [Interview.step, hc, hp]

theorem ended (d : Interview.State) (i : Nat) (r : Py Ret) (h : pcOf d i = some .body) :
    (∀ j, j ≠ i → pcOf (Interview.step d (.bodyEnds i r)) j = pcOf d j) ∧ (Interview.step d (.bodyEnds i r)).calls.length = d.calls.length ∧
    ((Interview.step d (.bodyEnds i r)).interviewed = true → d.interviewed = true ∨ ∃ v, r = .ok v ∧ v ≠ .bool false) ∧
    ∃ how x, pcOf (Interview.step d (.bodyEnds i r)) i = some (.done how x) ∧ (how = .finished ∨ how = .raised → x = r) ∧ (∀ v, r = .ok v → how = .finished) := by
  have hlt := pc_lt h
  cases hc : d.calls[i]? with
  | none => simp [pcOf, hc] at h
  | some c =>
    have hp : c.pc = .body := by rw [pcOf_some hc] at h; exact Option.some.inj h
    have key : ∀ (n : Nat) (b : Bool) (t : Nat) (x : Interview.Call), (∀ j, j ≠ i → pcOf ⟨d.id, n, b, d.calls.set i x, t⟩ j = pcOf d j) ∧
        pcOf ⟨d.id, n, b, d.calls.set i x, t⟩ i = some x.pc := by
      intro n b t x
      constructor
      · intro j hj; rw [calls_set, if_neg fun e => hj e.1]
      · rw [calls_set, if_pos ⟨rfl, hlt⟩]
    cases r with
    | error e =>
      cases e <;> simp only [Interview.step, hc, if_pos hp] <;>
        exact ⟨(key _ _ _ _).1, by simp, .inl, _, _, (key _ _ _ _).2, by simp, by simp⟩
    | ok v =>
      simp only [Interview.step, hc, if_pos hp]
      refine ⟨(key _ _ _ _).1, by simp, ?_, _, _, (key _ _ _ _).2, by simp, by simp⟩
      intro hm
      by_cases hv : v = .bool false
      · rw [if_pos hv] at hm; exact .inl hm
      · exact .inr ⟨v, rfl, hv⟩

/-! ## The invariant -/

/-- What is known of a call: where it is, what remains of its interview and what it has asked. -/
def Ok {σ : Type} (c : Cls σ) (pc : Option Interview.Pc) (body : Option (Prog σ)) (l : List Item) : Prop :=
  match pc with
  | none => body = none ∧ l = []
  | some .version => (∃ r, body = some (.ret r)) ∧ l = []
  | some .body => ∃ p, body = some p ∧ Waits p ∧ ∃ s0 s1, Path c.prog s0 l p s1
  | some (.done how r) => (∃ r', body = some (.ret r')) ∧ (how = .finished → ∃ s0 s1, Path c.prog s0 l (.ret r) s1) ∧
    (how = .raised → l = [] ∨ ∃ s0 s1, Path c.prog s0 l (.ret r) s1)

structure Inv {σ : Type} (c : Cls σ) (s : State σ) : Prop where
  len : s.bodies.length = s.dec.calls.length
  calls : ∀ i, Ok c (pcOf s.dec i) s.bodies[i]? (itemsOf s.trace i)
  marked : s.dec.interviewed = true → ∃ i v, pcOf s.dec i = some (.done .finished (.ok v)) ∧ v ≠ .bool false

/-- As the invariant, for all calls but `i`, which is at `p`. -/
structure Pre {σ : Type} (c : Cls σ) (s : State σ) (i : Nat) (p : Prog σ) : Prop where
  len : s.bodies.length = s.dec.calls.length
  calls : ∀ j, j ≠ i → Ok c (pcOf s.dec j) s.bodies[j]? (itemsOf s.trace j)
  body : pcOf s.dec i = some .body
  path : ∃ s0, Path c.prog s0 (itemsOf s.trace i) p s.attrs
  marked : s.dec.interviewed = true → ∃ i v, pcOf s.dec i = some (.done .finished (.ok v)) ∧ v ≠ .bool false

theorem go_wait {σ : Type} (s : State σ) (i : Nat) (p : Prog σ) (h : Waits (pause p s.attrs).2) :
    go s i p = { s with attrs := (pause p s.attrs).1, bodies := s.bodies.set i (pause p s.attrs).2 } := by
  unfold go
  cases hp : (pause p s.attrs).2 with
  | ask q k => simp [hp]
  | send q k => simp [hp]
  | ret r => rw [hp] at h; exact h.elim
  | look k => rw [hp] at h; exact h.elim
  | write f q => rw [hp] at h; exact h.elim

theorem go_ret {σ : Type} (s : State σ) (i : Nat) (p : Prog σ) (r : Py Ret) (h : (pause p s.attrs).2 = .ret r) :
    go s i p = { s with attrs := (pause p s.attrs).1, bodies := s.bodies.set i (.ret r), dec := Interview.step s.dec (.bodyEnds i r) } := by
  unfold go
  simp [h]

theorem inv_go {σ : Type} {c : Cls σ} {s : State σ} {i : Nat} {p : Prog σ} (h : Pre c s i p) : Inv c (go s i p) := by
  obtain ⟨s0, hp⟩ := h.path
  have hpath := hp.trans (path_pause p s.attrs)
  rw [List.append_nil] at hpath
  have hlt : i < s.bodies.length := by rw [h.len]; exact pc_lt h.body
  rcases pause_waits p s.attrs with hw | ⟨r, hr⟩
  · rw [go_wait s i p hw]
    refine ⟨by simp [h.len], ?_, h.marked⟩
    intro j
    by_cases hj : j = i
    · subst hj
      simp only [List.getElem?_set_self hlt, h.body, Ok]
      exact ⟨_, rfl, hw, s0, _, hpath⟩
    · simp only [List.getElem?_set_ne fun e => hj e.symm]
      exact h.calls j hj
  · rw [go_ret s i p r hr]
    rw [hr] at hpath
    obtain ⟨e1, e2, e3, how, x, e4, e5, e6⟩ := ended s.dec i r h.body
    refine ⟨by simp [h.len, e2], ?_, ?_⟩
    · intro j
      by_cases hj : j = i
      · subst hj
        simp only [List.getElem?_set_self hlt, e4, Ok]
        exact ⟨⟨_, rfl⟩, fun hf => ⟨s0, _, by rw [e5 (.inl hf)]; exact hpath⟩, fun hf => .inr ⟨s0, _, by rw [e5 (.inr hf)]; exact hpath⟩⟩
      · simp only [List.getElem?_set_ne fun e => hj e.symm, e1 j hj]
        exact h.calls j hj
    · intro hm
      rcases e3 hm with hm | ⟨v, rfl, hv⟩
      · obtain ⟨j, v, hj, hv⟩ := h.marked hm
        refine ⟨j, v, ?_, hv⟩
        have : j ≠ i := by rintro rfl; rw [h.body] at hj; cases hj
        rw [e1 j this]; exact hj
      · have hf := e6 v rfl
        subst hf
        exact ⟨i, v, by rw [e4, e5 (.inl rfl)], hv⟩

theorem items_snoc (tr : List Ev) (i j : Nat) (x : Item) : itemsOf (tr ++ [⟨i, x⟩]) j = if j = i then itemsOf tr j ++ [x] else itemsOf tr j := by
  unfold itemsOf
  rw [List.filter_append, List.map_append]
  by_cases h : i = j
  · simp [h]
  · simp only [h, decide_false, Bool.false_eq_true, not_false_eq_true, List.filter_cons_of_neg, List.filter_nil, List.map_nil, List.append_nil, if_neg fun e : j = i => h e.symm]

theorem inv_step {σ : Type} {c : Cls σ} {s : State σ} (h : Inv c s) (o : Op σ) (ho : ∀ v f, o ≠ .load v true f) : Inv c (step c s o) := by
  have hnone : pcOf s.dec s.dec.calls.length = none := by simp [pcOf]
  have hnil : itemsOf s.trace s.dec.calls.length = [] := by
    have := h.calls s.dec.calls.length
    rw [hnone] at this
    exact this.2
  have keep : ∀ d : Interview.State, (∀ j v, pcOf s.dec j = some (.done .finished (.ok v)) → pcOf d j = some (.done .finished (.ok v))) →
      (d.interviewed = true → s.dec.interviewed = true) → (d.interviewed = true → ∃ i v, pcOf d i = some (.done .finished (.ok v)) ∧ v ≠ .bool false) := by
    intro d h1 h2 h3
    obtain ⟨i, v, hi, hv⟩ := h.marked (h2 h3)
    exact ⟨i, v, h1 i v hi, hv⟩
  have grow : ∀ (j : Nat), j ≠ s.dec.calls.length → (s.bodies ++ [Prog.ret (.ok .none)])[j]? = s.bodies[j]? := by
    intro j hj
    rcases Nat.lt_trichotomy j s.dec.calls.length with h' | h' | h'
    · rw [List.getElem?_append_left (by rw [h.len]; exact h')]
    · exact absurd h' hj
    · rw [List.getElem?_eq_none (by simp [h.len]; omega), List.getElem?_eq_none (by rw [h.len]; omega)]
  have last : (s.bodies ++ [Prog.ret (.ok .none)])[s.dec.calls.length]? = some (Prog.ret (.ok .none)) := by rw [← h.len]; simp
  have begun : ∀ d' : Interview.State, (∀ j, j ≠ s.dec.calls.length → pcOf d' j = pcOf s.dec j) → (d'.interviewed = true → s.dec.interviewed = true) →
      (d'.interviewed = true → ∃ i v, pcOf d' i = some (.done .finished (.ok v)) ∧ v ≠ .bool false) := by
    intro d' h1 h2
    refine keep d' (fun j v hj => ?_) h2
    rw [h1 j (by rintro rfl; rw [hnone] at hj; cases hj)]
    exact hj
  -- a call that begins and is not in its body
  have start : ∀ d' : Interview.State, (∀ j, j ≠ s.dec.calls.length → pcOf d' j = pcOf s.dec j) → d'.calls.length = s.dec.calls.length + 1 → (d'.interviewed = true → s.dec.interviewed = true) →
      (pcOf d' s.dec.calls.length = some .version ∨ ∃ p, pcOf d' s.dec.calls.length = some p ∧ Bare p) →
      Inv c ({ s with dec := d', bodies := s.bodies ++ [.ret (.ok .none)] } : State σ) := by
    intro d' h1 h2 h3 h4
    refine ⟨by simp [h.len, h2], fun j => ?_, begun d' h1 h3⟩
    by_cases hj : j = s.dec.calls.length
    · subst hj
      simp only [last]
      rcases h4 with h4 | ⟨p, h4, how, r, rfl, hb⟩
      · rw [h4]; exact ⟨⟨_, rfl⟩, hnil⟩
      · rw [h4]; exact ⟨⟨_, rfl⟩, fun e => absurd e hb, fun _ => .inl hnil⟩
    · simp only [grow j hj, h1 j hj]
      exact h.calls j
  cases o with
  | interview =>
    obtain ⟨e1, e2, e3, e4⟩ := begins s.dec .interview (.inl rfl)
    simp only [step]
    split
    · rename_i hb
      refine inv_go ⟨by simp [h.len, e2], fun j hj => ?_, hb, ⟨s.attrs, ?_⟩, begun _ e1 e3⟩
      · simp only [grow j hj, e1 j hj]
        exact h.calls j
      · simp only [hnil]; exact .nil
    · rename_i hb
      refine start _ e1 e2 e3 ?_
      rcases e4 with e | ⟨-, e⟩ | e
      · exact .inl e
      · exact absurd e hb
      · exact .inr e
  | requestVersion =>
    obtain ⟨e1, e2, e3, e4⟩ := begins s.dec .requestVersion (.inr rfl)
    refine start _ e1 e2 e3 ?_
    rcases e4 with e | ⟨e, -⟩ | e
    · exact .inl e
    · cases e
    · exact .inr e
  | versionAnswer i r =>
    obtain ⟨e1, e2, e3, e4⟩ := answered s.dec i r
    have hm : (Interview.step s.dec (.versionAnswer i r)).interviewed = true →
        ∃ j v, pcOf (Interview.step s.dec (.versionAnswer i r)) j = some (.done .finished (.ok v)) ∧ v ≠ .bool false := by
      refine keep _ (fun j v hj => ?_) e3
      by_cases hji : j = i
      · subst hji
        rcases e4 with e4 | ⟨e4, -⟩
        · rw [e4]; exact hj
        · rw [e4] at hj; cases hj
      · rw [e1 j hji]; exact hj
    simp only [step]
    split
    · rename_i hb
      have hi := h.calls i
      rw [hb.1] at hi
      refine inv_go ⟨by simp [h.len, e2], fun j hj => ?_, hb.2, ⟨c.version (Interview.step s.dec (.versionAnswer i r)).version s.attrs, ?_⟩, hm⟩
      · simp only [e1 j hj]; exact h.calls j
      · simp only [hi.2]; exact .nil
    · rename_i hb
      refine ⟨by simp [h.len, e2], fun j => ?_, hm⟩
      by_cases hj : j = i
      · subst hj
        have hi := h.calls j
        rcases e4 with e4 | ⟨e4, e5 | ⟨p, e5, how, x, rfl, hx⟩⟩
        · simp only [e4]; exact hi
        · exact absurd ⟨e4, e5⟩ hb
        · rw [e4] at hi
          simp only [e5]
          exact ⟨hi.1, fun e => absurd e hx, fun _ => .inl hi.2⟩
      · simp only [e1 j hj]; exact h.calls j
  | answer i r =>
    simp only [step]
    split
    · rename_i q k hq
      have hi := h.calls i
      rw [hq] at hi
      have hb : pcOf s.dec i = some .body ∧ ∃ s0 s1, Path c.prog s0 (itemsOf s.trace i) (.ask q k) s1 := by
        revert hi
        unfold Ok
        split
        · rintro ⟨h, -⟩; cases h
        · rintro ⟨⟨_, h⟩, -⟩; cases h
        · rename_i hp; rintro ⟨p, h, -, h'⟩; cases h; exact ⟨hp, h'⟩
        · rintro ⟨⟨_, h⟩, -⟩; cases h
      obtain ⟨hb, s0, s1, hp⟩ := hb
      refine inv_go ⟨h.len, fun j hj => ?_, hb, ⟨s0, ?_⟩, h.marked⟩
      · simp only [items_snoc, if_neg hj]; exact h.calls j
      · simp only [items_snoc, if_true]
        exact hp.trans (.ask .nil)
    · exact h
  | acked i r =>
    simp only [step]
    split
    · rename_i q k hq
      have hi := h.calls i
      rw [hq] at hi
      have hb : pcOf s.dec i = some .body ∧ ∃ s0 s1, Path c.prog s0 (itemsOf s.trace i) (.send q k) s1 := by
        revert hi
        unfold Ok
        split
        · rintro ⟨h, -⟩; cases h
        · rintro ⟨⟨_, h⟩, -⟩; cases h
        · rename_i hp; rintro ⟨p, h, -, h'⟩; cases h; exact ⟨hp, h'⟩
        · rintro ⟨⟨_, h⟩, -⟩; cases h
      obtain ⟨hb, s0, s1, hp⟩ := hb
      refine inv_go ⟨h.len, fun j hj => ?_, hb, ⟨s0, ?_⟩, h.marked⟩
      · simp only [items_snoc, if_neg hj]; exact h.calls j
      · simp only [items_snoc, if_true]
        exact hp.trans (.send .nil)
    · exact h
  | load v b f =>
    cases b with
    | true => exact absurd rfl (ho v f)
    | false => exact ⟨h.len, h.calls, fun hm => by simp [step, Interview.step] at hm⟩
  | others f => exact ⟨h.len, h.calls, h.marked⟩

theorem inv_run {σ : Type} (c : Cls σ) (id : Nat) (a : σ) (ops : List (Op σ)) (ho : NoMark ops) : Inv c (run c (fresh id a) ops) := by
  induction ops using Conn.snoc_ind with
  | nil =>
    refine ⟨rfl, fun i => ?_, fun h => ?_⟩
    · simp [run, fresh, Interview.fresh, pcOf, Ok, itemsOf]
    · simp [run, fresh, Interview.fresh] at h
  | snoc ops o ih =>
    rw [run, List.foldl_append]
    exact inv_step (ih fun o' h => ho o' (List.mem_append_left _ h)) o (ho o (by simp))

/-- **C149.** A class that is marked as interviewed and was not loaded so has had an interview that ended well: what that interview asked and sent is what its program does with
the answers that came, for every schedule of overlapping interviews, requests for the version, loading and handlers. -/
theorem C149_marked {σ : Type} (c : Cls σ) (id : Nat) (a : σ) (ops : List (Op σ)) (ho : NoMark ops) (h : (run c (fresh id a) ops).dec.interviewed = true) :
    ∃ i v s0 xs, EndedWell (run c (fresh id a) ops) i v ∧ (exec c.prog s0 xs).result = some (.ok v) ∧
      (exec c.prog s0 xs).items = itemsOf (run c (fresh id a) ops).trace i := by
  have hI := inv_run c id a ops ho
  obtain ⟨i, v, hi, hv⟩ := hI.marked h
  have hc := hI.calls i
  rw [hi] at hc
  obtain ⟨s0, s1, hp⟩ := hc.2.1 rfl
  obtain ⟨xs, hx⟩ := hp.exec _ rfl
  refine ⟨i, v, s0, xs, ⟨?_, hv⟩, by rw [hx], by rw [hx]⟩
  revert hi
  unfold pcOf
  cases (run c (fresh id a) ops).dec.calls[i]? with
  | none => intro h; cases h
  | some x => intro h; cases x; simp only [Option.map_some, Option.some.injEq] at h; subst h; exact ⟨_, rfl⟩

/-- The same for an interview that raised: if it had asked something then what it asked and sent is what its program does with the answers that came. -/
theorem raised_exec {σ : Type} (c : Cls σ) (id : Nat) (a : σ) (ops : List (Op σ)) (ho : NoMark ops) (i : Nat) (b : Bool) (r : Py Ret)
    (h : (run c (fresh id a) ops).dec.calls[i]? = some ⟨b, .done .raised r⟩) (hi : itemsOf (run c (fresh id a) ops).trace i ≠ []) :
    ∃ s0 xs, (exec c.prog s0 xs).result = some r ∧ (exec c.prog s0 xs).items = itemsOf (run c (fresh id a) ops).trace i := by
  have hc := (inv_run c id a ops ho).calls i
  rw [pcOf_some h] at hc
  rcases hc.2.2 rfl with e | ⟨s0, s1, hp⟩
  · exact absurd e hi
  · obtain ⟨xs, hx⟩ := hp.exec _ rfl
    exact ⟨s0, xs, by rw [hx], by rw [hx]⟩

/-- **C149**, for the interviews for which C148 holds: everything that interview asked was answered. -/
theorem C149_answered {σ : Type} (c : Cls σ) (hc : Honest c.prog) (id : Nat) (a : σ) (ops : List (Op σ)) (ho : NoMark ops) (h : (run c (fresh id a) ops).dec.interviewed = true) :
    ∃ i v, EndedWell (run c (fresh id a) ops) i v ∧ ∀ x ∈ itemsOf (run c (fresh id a) ops).trace i, Settled x := by
  obtain ⟨i, v, s0, xs, h1, h2, h3⟩ := C149_marked c id a ops ho h
  exact ⟨i, v, h1, fun x hx => hc s0 xs _ h2 ⟨v, rfl, h1.2⟩ x (h3 ▸ hx)⟩

/-! ## Version, ManufacturerSpecific, ZwavePlusInfo -/

/-- The classes with the question they ask and the attributes they copy. -/
def copied : List (Cls (Dict String Int) × Query × List String) :=
  [(version, .version, Classes.Copy.versionNames), (manufacturer, .manufacturer, Classes.Copy.manufacturerNames), (plusInfo, .plusInfo, Classes.Copy.plusNames)]

theorem copied_prog {c : Cls (Dict String Int)} {q : Query} {names : List String} (h : (c, q, names) ∈ copied) :
    c.prog = copying q names ∧ (∀ n d, c.version n d = d) ∧ names.Nodup := by
  simp only [copied, List.mem_cons, Prod.mk.injEq, List.not_mem_nil, or_false] at h
  rcases h with ⟨rfl, rfl, rfl⟩ | ⟨rfl, rfl, rfl⟩ | ⟨rfl, rfl, rfl⟩ <;> exact ⟨rfl, fun _ _ => rfl, by decide⟩

/-- **C149**, these classes: the interview that marked the class asked once and got a report that has all its attributes. -/
theorem C149_report {c : Cls (Dict String Int)} {q : Query} {names : List String} (hc : (c, q, names) ∈ copied) (id : Nat) (a : Dict String Int) (ops : List (Op (Dict String Int)))
    (ho : NoMark ops) (h : (run c (fresh id a) ops).dec.interviewed = true) :
    ∃ i v m, EndedWell (run c (fresh id a) ops) i v ∧ itemsOf (run c (fresh id a) ops).trace i = [.asked q (some (.ok m))] ∧ ∀ n ∈ names, ∃ x, Says m n x := by
  obtain ⟨i, v, s0, xs, h1, h2, h3⟩ := C149_marked c id a ops ho h
  rw [(copied_prog hc).1] at h2 h3
  have key : ∀ (m : Msg) (names : List String) d xs, (exec (copy m names) d xs).items = [] ∧ ((exec (copy m names) d xs).result = some (.ok v) → ∀ n ∈ names, ∃ x, Says m n x) := by
    intro m names
    induction names with
    | nil => intro d xs; exact ⟨rfl, by simp⟩
    | cons n ns ih =>
      intro d xs
      simp only [copy]
      cases hn : Classes.needNum m n with
      | error e => exact ⟨rfl, by simp [exec]⟩
      | ok x =>
        obtain ⟨e1, e2⟩ := ih (d.set n x) xs
        refine ⟨e1, fun h n' hn' => ?_⟩
        rcases List.mem_cons.mp hn' with rfl | hn'
        · exact ⟨x, hn⟩
        · exact e2 h n' hn'
  cases xs with
  | nil => simp [copying, exec] at h2
  | cons x xs =>
    obtain ⟨f, r, b⟩ := x
    cases r with
    | error e => simp [copying, exec, Out.after] at h2
    | ok m =>
      simp only [copying, exec, Out.after] at h2 h3
      exact ⟨i, v, m, h1, by rw [← h3, (key m names _ _).1], (key m names _ _).2 h2⟩

/-- What copying one report does. -/
private theorem pause_copy (m : Msg) (names : List String) : ∀ d, (pause (copy m names) d).1 = (Classes.Copy.copy m names d).1 ∧ ∃ r, (pause (copy m names) d).2 = .ret r := by
  induction names with
  | nil => intro d; exact ⟨rfl, _, rfl⟩
  | cons n ns ih =>
    intro d
    simp only [copy, Classes.Copy.copy]
    cases Classes.needNum m n with
    | error e => exact ⟨rfl, _, rfl⟩
    | ok v => exact ih _

private theorem go_bodies {σ : Type} (s : State σ) (i : Nat) (p : Prog σ) :
    (go s i p).attrs = (pause p s.attrs).1 ∧ (go s i p).bodies = s.bodies.set i (pause p s.attrs).2 ∧ (go s i p).trace = s.trace := by
  rcases pause_waits p s.attrs with hw | ⟨r, hr⟩
  · rw [go_wait s i p hw]; exact ⟨rfl, rfl, rfl⟩
  · rw [go_ret s i p r hr]; exact ⟨rfl, by rw [hr], rfl⟩

private theorem mem_set' {α : Type} {l : List α} {i : Nat} {x y : α} (h : y ∈ l.set i x) : y = x ∨ y ∈ l := (List.mem_or_eq_of_mem_set h).symm

/-- **C149**, the values: at all times the attributes are the first ones with the reports that came as answers copied into them one after the other, in the order in which they came. -/
theorem C149_history {c : Cls (Dict String Int)} {q : Query} {names : List String} (hc : (c, q, names) ∈ copied) (id : Nat) (a : Dict String Int) (ops : List (Op (Dict String Int)))
    (ho : OnlyAsked ops) :
    (run c (fresh id a) ops).attrs = (reports (run c (fresh id a) ops).trace).foldl (fun d m => (Classes.Copy.copy m names d).1) a := by
  obtain ⟨hp, hver, -⟩ := copied_prog hc
  suffices h : (run c (fresh id a) ops).attrs = (reports (run c (fresh id a) ops).trace).foldl (fun d m => (Classes.Copy.copy m names d).1) a ∧
      ∀ p ∈ (run c (fresh id a) ops).bodies, p = copying q names ∨ ∃ r, p = .ret r from h.1
  induction ops using Conn.snoc_ind with
  | nil => exact ⟨rfl, fun p h => by simp [run, fresh] at h⟩
  | snoc ops o ih =>
    obtain ⟨h1, h2⟩ := ih fun o' h => ho o' (List.mem_append_left _ h)
    have hr : run c (fresh id a) (ops ++ [o]) = step c (run c (fresh id a) ops) o := by simp [run]
    rw [hr]
    generalize run c (fresh id a) ops = s at h1 h2 ⊢
    have ho' := ho o (by simp)
    have more : ∀ p ∈ s.bodies ++ [Prog.ret (.ok .none)], p = copying q names ∨ ∃ r, p = .ret r := by
      intro p hp
      rcases List.mem_append.mp hp with hp | hp
      · exact h2 p hp
      · rw [List.mem_singleton] at hp; exact .inr ⟨_, hp⟩
    cases o with
    | interview =>
      simp only [step]
      split
      · obtain ⟨e1, e2, e3⟩ := go_bodies { s with dec := Interview.step s.dec .interview, bodies := s.bodies ++ [.ret (.ok .none)] } s.dec.calls.length c.prog
        rw [e1, e2, e3, hp]
        refine ⟨h1, fun p h => ?_⟩
        rcases mem_set' h with rfl | h
        · exact .inl rfl
        · exact more p h
      · exact ⟨h1, more⟩
    | requestVersion => exact ⟨h1, more⟩
    | versionAnswer i r =>
      simp only [step, hver]
      split
      · obtain ⟨e1, e2, e3⟩ := go_bodies { s with dec := Interview.step s.dec (.versionAnswer i r) } i c.prog
        rw [e1, e2, e3, hp]
        refine ⟨h1, fun p h => ?_⟩
        rcases mem_set' h with rfl | h
        · exact .inl rfl
        · exact h2 p h
      · exact ⟨h1, h2⟩
    | answer i r =>
      simp only [step]
      split
      · rename_i q' k hk
        obtain ⟨e1, e2, e3⟩ := go_bodies { s with trace := s.trace ++ [⟨i, .asked q' (some r)⟩] } i (k r)
        rw [e1, e2, e3]
        rcases h2 _ (List.mem_of_getElem? hk) with e | ⟨_, e⟩
        · simp only [copying, Prog.ask.injEq] at e
          obtain ⟨rfl, rfl⟩ := e
          cases r with
          | error e =>
            refine ⟨by simp [reports, pause] at h1 ⊢; exact h1, fun p h => ?_⟩
            rcases mem_set' h with rfl | h
            · exact .inr ⟨_, rfl⟩
            · exact h2 p h
          | ok m =>
            obtain ⟨f1, r', f2⟩ := pause_copy m names s.attrs
            refine ⟨?_, fun p h => ?_⟩
            · simp only [f1, reports, List.filterMap_append, List.foldl_append]
              rw [← reports, ← h1]; rfl
            · rcases mem_set' h with rfl | h
              · exact .inr ⟨_, f2⟩
              · exact h2 p h
        · cases e
      · exact ⟨h1, h2⟩
    | acked i r =>
      simp only [step]
      split
      · rename_i q' k hk
        rcases h2 _ (List.mem_of_getElem? hk) with e | ⟨_, e⟩ <;> cases e
      · exact ⟨h1, h2⟩
    | load v b f => exact absurd rfl (ho'.1 v b f)
    | others f => exact absurd rfl (ho'.2 f)

private theorem copy_says {m : Msg} {names : List String} (hn : names.Nodup) (h : ∀ n ∈ names, ∃ x, Says m n x) :
    ∀ (d : Dict String Int), (∀ n ∈ names, ∀ x, Says m n x → (Classes.Copy.copy m names d).1.get? n = some x) ∧
      ∀ n, n ∉ names → (Classes.Copy.copy m names d).1.get? n = d.get? n := by
  induction names with
  | nil => intro d; simp [Classes.Copy.copy]
  | cons n ns ih =>
    intro d
    obtain ⟨x, hx⟩ := h n (List.mem_cons_self ..)
    rw [List.nodup_cons] at hn
    obtain ⟨e1, e2⟩ := ih hn.2 (fun n' h' => h n' (List.mem_cons_of_mem _ h')) (d.set n x)
    simp only [Says] at hx
    simp only [Classes.Copy.copy, hx]
    refine ⟨fun n' hn' y hy => ?_, fun n' hn' => ?_⟩
    · rcases List.mem_cons.mp hn' with rfl | hn'
      · rw [e2 _ hn.1, Dict.get?_set, if_pos rfl]
        simp only [Says, hx, Except.ok.injEq] at hy
        rw [hy]
      · exact e1 n' hn' y hy
    · rw [List.mem_cons, not_or] at hn'
      rw [e2 n' hn'.2, Dict.get?_set, if_neg fun e => hn'.1 e.symm]

/-- **C149**, the values of a class: if the last report that came as an answer has all the attributes, then they all are as this report says, whatever interviews overlap. -/
theorem C149_latest {c : Cls (Dict String Int)} {q : Query} {names : List String} (hc : (c, q, names) ∈ copied) (id : Nat) (a : Dict String Int) (ops : List (Op (Dict String Int)))
    (ho : OnlyAsked ops) (l : List Msg) (m : Msg) (hl : reports (run c (fresh id a) ops).trace = l ++ [m]) (hm : ∀ n ∈ names, ∃ x, Says m n x) :
    ∀ n ∈ names, ∀ x, Says m n x → (run c (fresh id a) ops).attrs.get? n = some x := by
  rw [C149_history hc id a ops ho, hl, List.foldl_append]
  exact (copy_says (copied_prog hc).2.2 hm _).1

/-- Two interviews overlap: both ask, the first gets one report and the second another one; the class holds the second one. -/
def overlapping : List (Op (Dict String Int)) :=
  [.interview, .interview, .versionAnswer 1 (.ok 2), .versionAnswer 0 (.ok 2), .answer 0 (decode [0x72, 0x05, 0, 1, 0, 2, 0, 3]), .answer 1 (decode [0x72, 0x05, 0, 4, 0, 5, 0, 6])]

example : NoMark overlapping ∧ OnlyAsked overlapping ∧ (run manufacturer (fresh 0x72 []) overlapping).dec.interviewed = true ∧
    (run manufacturer (fresh 0x72 []) overlapping).attrs = [("manufacturerID", 4), ("productTypeID", 5), ("productID", 6)] ∧
    (run manufacturer (fresh 0x72 []) (overlapping.take 5)).attrs = [("manufacturerID", 1), ("productTypeID", 2), ("productID", 3)] :=
  ⟨by simp [NoMark, overlapping], by simp [OnlyAsked, overlapping], by decide +kernel, by decide +kernel, by decide +kernel⟩

/-- A report that is too short leaves a mixture; while the class is marked this takes an interview that was begun before the one that marked it. -/
example : (run manufacturer (fresh 0x72 []) (overlapping.take 5 ++ [.answer 1 (decode [0x72, 0x05, 0, 4])])).attrs = [("manufacturerID", 4), ("productTypeID", 2), ("productID", 3)] := by
  decide +kernel

/-- Nobody answers: the class is not marked. -/
example : (run manufacturer (fresh 0x72 []) [.interview, .versionAnswer 0 (.ok 2), .answer 0 (.error .timeout)]).dec.interviewed = false := by decide +kernel

/-! ## SensorMultilevel -/

/-- A report about the scales of a sensor is stored. -/
private def learn (d : Dict Int Int) (x : Nat × Msg) : Dict Int Int :=
  match Classes.needNum x.2 "scaleBitMask" with
  | .ok mask => d.set x.1 mask
  | .error _ => d

/-- What SensorMultilevel waits for. -/
private inductive Rest : Prog Classes.Sensor.State → Prop
  | ret (r : Py Ret) : Rest (.ret r)
  | first : Rest (.ask .sensors fun r =>
      match r with
      | .error e => .ret (.error e)
      | .ok m =>
        match getAttr registry m "bitMask" with
        | some (.sensors l) => Body.sensorLoop l
        | _ => .ret (.error .type))
  | loop (t : Nat) (ts : List Nat) : Rest (Body.sensorLoop (t :: ts))

private theorem rest_loop (l : List Nat) (s : Classes.Sensor.State) : pause (Body.sensorLoop l) s = (s, Body.sensorLoop l) ∧ Rest (Body.sensorLoop l) := by
  cases l with
  | nil => exact ⟨rfl, .ret _⟩
  | cons t ts => exact ⟨rfl, .loop t ts⟩

private theorem rest_sensor (s : Classes.Sensor.State) : (pause Body.sensor s).1 = s ∧ Rest (pause Body.sensor s).2 := by
  simp only [Body.sensor, pause]
  split
  · exact ⟨rfl, .ret _⟩
  · exact ⟨rfl, .first⟩

private theorem sensor_history (id : Nat) (a : Classes.Sensor.State) (ops : List (Op Classes.Sensor.State)) (ho : OnlyAsked ops) :
    (run sensor (fresh id a) ops).attrs.types = (scales (run sensor (fresh id a) ops).trace).foldl learn a.types := by
  suffices h : (run sensor (fresh id a) ops).attrs.types = (scales (run sensor (fresh id a) ops).trace).foldl learn a.types ∧
      ∀ p ∈ (run sensor (fresh id a) ops).bodies, Rest p from h.1
  induction ops using Conn.snoc_ind with
  | nil => exact ⟨rfl, fun p h => by simp [run, fresh] at h⟩
  | snoc ops o ih =>
    obtain ⟨h1, h2⟩ := ih fun o' h => ho o' (List.mem_append_left _ h)
    have hr : run sensor (fresh id a) (ops ++ [o]) = step sensor (run sensor (fresh id a) ops) o := by simp [run]
    rw [hr]
    generalize run sensor (fresh id a) ops = s at h1 h2 ⊢
    have ho' := ho o (by simp)
    have more : ∀ p ∈ s.bodies ++ [Prog.ret (.ok .none)], Rest p := by
      intro p hp
      rcases List.mem_append.mp hp with hp | hp
      · exact h2 p hp
      · rw [List.mem_singleton] at hp; subst hp; exact .ret _
    have put : ∀ (l : List (Prog Classes.Sensor.State)) (i : Nat) (p : Prog Classes.Sensor.State), (∀ p ∈ l, Rest p) → Rest p → ∀ p' ∈ l.set i p, Rest p' := by
      intro l i p hl hp p' h
      rcases mem_set' h with rfl | h
      · exact hp
      · exact hl _ h
    cases o with
    | interview =>
      simp only [step]
      split
      · obtain ⟨e1, e2, e3⟩ := go_bodies { s with dec := Interview.step s.dec .interview, bodies := s.bodies ++ [.ret (.ok .none)] } s.dec.calls.length sensor.prog
        rw [e1, e2, e3]
        refine ⟨?_, put _ _ _ more (rest_sensor _).2⟩
        rw [show sensor.prog = Body.sensor from rfl, (rest_sensor _).1]
        exact h1
      · exact ⟨h1, more⟩
    | requestVersion => exact ⟨h1, more⟩
    | versionAnswer i r =>
      simp only [step]
      split
      · obtain ⟨e1, e2, e3⟩ := go_bodies (σ := Classes.Sensor.State)
          ⟨Interview.step s.dec (.versionAnswer i r), sensor.version (Interview.step s.dec (.versionAnswer i r)).version s.attrs, s.bodies, s.trace⟩ i sensor.prog
        rw [e1, e2, e3]
        refine ⟨?_, put _ _ _ h2 (rest_sensor _).2⟩
        rw [show sensor.prog = Body.sensor from rfl, (rest_sensor _).1]
        exact h1
      · exact ⟨h1, h2⟩
    | answer i r =>
      simp only [step]
      split
      · rename_i q k hk
        obtain ⟨e1, e2, e3⟩ := go_bodies { s with trace := s.trace ++ [⟨i, .asked q (some r)⟩] } i (k r)
        rw [e1, e2, e3]
        have hrest := h2 _ (List.mem_of_getElem? hk)
        generalize he : Prog.ask q k = p at hrest
        cases hrest with
        | ret r' => cases he
        | first =>
          cases he
          have hs : scales (s.trace ++ [⟨i, .asked .sensors (some r)⟩]) = scales s.trace := by simp [scales]
          simp only [hs]
          cases r with
          | error e => exact ⟨h1, put _ _ _ h2 (.ret _)⟩
          | ok m =>
            dsimp only
            split
            · rename_i l hb
              rw [(rest_loop l s.attrs).1]
              exact ⟨h1, put _ _ _ h2 (rest_loop l s.attrs).2⟩
            · exact ⟨h1, put _ _ _ h2 (.ret _)⟩
        | loop t ts =>
          simp only [Body.sensorLoop, Prog.ask.injEq] at he
          obtain ⟨rfl, rfl⟩ := he
          cases r with
          | error e =>
            have hs : scales (s.trace ++ [⟨i, .asked (.scales t) (some (.error e))⟩]) = scales s.trace := by simp [scales]
            simp only [hs]
            exact ⟨h1, put _ _ _ h2 (.ret _)⟩
          | ok m =>
            have hs : scales (s.trace ++ [⟨i, .asked (.scales t) (some (.ok m))⟩]) = scales s.trace ++ [(t, m)] := by simp [scales]
            simp only [hs, List.foldl_append, List.foldl_cons, List.foldl_nil, ← h1, learn]
            cases Classes.needNum m "scaleBitMask" with
            | error e => exact ⟨rfl, put _ _ _ h2 (.ret _)⟩
            | ok mask =>
              dsimp only [pause]
              rw [(rest_loop ts _).1]
              exact ⟨rfl, put _ _ _ h2 (rest_loop ts s.attrs).2⟩
      · exact ⟨h1, h2⟩
    | acked i r =>
      simp only [step]
      split
      · rename_i q' k hk
        have := h2 _ (List.mem_of_getElem? hk)
        generalize he : Prog.send q' k = p at this
        cases this <;> cases he
      · exact ⟨h1, h2⟩
    | load v b f => exact absurd rfl (ho'.1 v b f)
    | others f => exact absurd rfl (ho'.2 f)

private theorem rest_pause {q : Query} {k : Py Msg → Prog Classes.Sensor.State} (h : Rest (.ask q k)) (r : Py Msg) (s : Classes.Sensor.State) :
    (pause (k r) s).1.version = s.version ∧ Rest (pause (k r) s).2 := by
  generalize he : Prog.ask q k = p at h
  cases h with
  | ret r' => cases he
  | first =>
    cases he
    cases r with
    | error e => exact ⟨rfl, .ret _⟩
    | ok m =>
      dsimp only
      split
      · rename_i l hb
        rw [(rest_loop l s).1]
        exact ⟨rfl, (rest_loop l s).2⟩
      · exact ⟨rfl, .ret _⟩
  | loop t ts =>
    simp only [Body.sensorLoop, Prog.ask.injEq] at he
    obtain ⟨rfl, rfl⟩ := he
    cases r with
    | error e => exact ⟨rfl, .ret _⟩
    | ok m =>
      dsimp only
      cases Classes.needNum m "scaleBitMask" with
      | error e => exact ⟨rfl, .ret _⟩
      | ok mask =>
        dsimp only [pause]
        rw [(rest_loop ts _).1]
        exact ⟨rfl, (rest_loop ts s).2⟩

private theorem go_version (s : State Classes.Sensor.State) (i : Nat) (p : Prog Classes.Sensor.State) : (go s i p).dec.version = s.dec.version := by
  rcases pause_waits p s.attrs with hw | ⟨r, hr⟩
  · rw [go_wait s i p hw]
  · rw [go_ret s i p r hr]
    simp only [Interview.step]
    cases s.dec.calls[i]? with
    | none => rfl
    | some c =>
      dsimp only
      split
      · cases r with
        | error e => cases e <;> rfl
        | ok v => rfl
      · rfl

/-- **C149**, the version: what SensorMultilevel takes for its version when it decides whether to ask is the version that the class has, also after loading. -/
theorem C149_version (id : Nat) (l : Dict Int Int) (ops : List (Op Classes.Sensor.State)) (ho : ∀ o ∈ ops, ∀ f, o ≠ .others f) :
    (run sensor (fresh id ⟨0, l⟩) ops).attrs.version = (run sensor (fresh id ⟨0, l⟩) ops).dec.version := by
  suffices h : (run sensor (fresh id ⟨0, l⟩) ops).attrs.version = (run sensor (fresh id ⟨0, l⟩) ops).dec.version ∧
      ∀ p ∈ (run sensor (fresh id ⟨0, l⟩) ops).bodies, Rest p from h.1
  induction ops using Conn.snoc_ind with
  | nil => exact ⟨rfl, fun p h => by simp [run, fresh] at h⟩
  | snoc ops o ih =>
    obtain ⟨h1, h2⟩ := ih fun o' h => ho o' (List.mem_append_left _ h)
    have hr : run sensor (fresh id ⟨0, l⟩) (ops ++ [o]) = step sensor (run sensor (fresh id ⟨0, l⟩) ops) o := by simp [run]
    rw [hr]
    generalize run sensor (fresh id ⟨0, l⟩) ops = s at h1 h2 ⊢
    have ho' := ho o (by simp)
    have more : ∀ p ∈ s.bodies ++ [Prog.ret (.ok .none)], Rest p := by
      intro p hp
      rcases List.mem_append.mp hp with hp | hp
      · exact h2 p hp
      · rw [List.mem_singleton] at hp; subst hp; exact .ret _
    have put : ∀ (l : List (Prog Classes.Sensor.State)) (i : Nat) (p : Prog Classes.Sensor.State), (∀ p ∈ l, Rest p) → Rest p → ∀ p' ∈ l.set i p, Rest p' := by
      intro l i p hl hp p' h
      rcases mem_set' h with rfl | h
      · exact hp
      · exact hl _ h
    have hv : ∀ o, o = .interview ∨ o = .requestVersion → (Interview.step s.dec o).version = s.dec.version := by
      rintro o (rfl | rfl) <;> simp only [Interview.step]
      · split
        · split <;> rfl
        · rfl
      · split <;> rfl
    cases o with
    | interview =>
      simp only [step]
      split
      · obtain ⟨e1, e2, e3⟩ := go_bodies { s with dec := Interview.step s.dec .interview, bodies := s.bodies ++ [.ret (.ok .none)] } s.dec.calls.length sensor.prog
        rw [e1, e2, go_version]
        refine ⟨?_, put _ _ _ more (rest_sensor _).2⟩
        rw [show sensor.prog = Body.sensor from rfl, (rest_sensor _).1]
        exact h1.trans (hv _ (.inl rfl)).symm
      · exact ⟨h1.trans (hv _ (.inl rfl)).symm, more⟩
    | requestVersion => exact ⟨h1.trans (hv _ (.inr rfl)).symm, more⟩
    | versionAnswer i r =>
      simp only [step]
      split
      · obtain ⟨e1, e2, e3⟩ := go_bodies (σ := Classes.Sensor.State)
          ⟨Interview.step s.dec (.versionAnswer i r), sensor.version (Interview.step s.dec (.versionAnswer i r)).version s.attrs, s.bodies, s.trace⟩ i sensor.prog
        rw [e1, e2, go_version]
        refine ⟨?_, put _ _ _ h2 (rest_sensor _).2⟩
        rw [show sensor.prog = Body.sensor from rfl, (rest_sensor _).1]
        rfl
      · exact ⟨rfl, h2⟩
    | answer i r =>
      simp only [step]
      split
      · rename_i q k hk
        obtain ⟨e1, e2, e3⟩ := go_bodies { s with trace := s.trace ++ [⟨i, .asked q (some r)⟩] } i (k r)
        rw [e1, e2, go_version]
        obtain ⟨f1, f2⟩ := rest_pause (h2 _ (List.mem_of_getElem? hk)) r s.attrs
        exact ⟨f1.trans h1, put _ _ _ h2 f2⟩
      · exact ⟨h1, h2⟩
    | acked i r =>
      simp only [step]
      split
      · rename_i q' k hk
        have := h2 _ (List.mem_of_getElem? hk)
        generalize he : Prog.send q' k = p at this
        cases this <;> cases he
      · exact ⟨h1, h2⟩
    | load v b f => exact ⟨rfl, h2⟩
    | others f => exact absurd rfl (ho' f)

/-- What is there has been stored last. -/
private theorem learn_last (l : List (Nat × Msg)) : ∀ (t mask : Int), (l.foldl learn []).get? t = some mask → ∃ x ∈ l, (x.1 : Int) = t ∧ Says x.2 "scaleBitMask" mask := by
  induction l using Conn.snoc_ind with
  | nil => intro t mask h; simp at h
  | snoc l x ih =>
    intro t mask h
    rw [List.foldl_append] at h
    simp only [List.foldl_cons, List.foldl_nil, learn] at h
    revert h
    cases hm : Classes.needNum x.2 "scaleBitMask" with
    | error e =>
      intro h
      obtain ⟨y, hy, h'⟩ := ih t mask h
      exact ⟨y, List.mem_append_left _ hy, h'⟩
    | ok v =>
      intro h
      simp only [Dict.get?_set] at h
      split at h
      · rename_i e
        cases h
        exact ⟨x, by simp, e, hm⟩
      · obtain ⟨y, hy, h'⟩ := ih t mask h
        exact ⟨y, List.mem_append_left _ hy, h'⟩

/-- **C150.** The scales that are held for a sensor are ones that the node has reported for this sensor. -/
def C150_statement : Prop :=
  ∀ (id : Nat) (ops : List (Op Classes.Sensor.State)), OnlyAsked ops → ∀ t mask : Int, (run sensor (fresh id ⟨0, []⟩) ops).attrs.types.get? t = some mask →
    ∃ m ∈ reports (run sensor (fresh id ⟨0, []⟩) ops).trace, Says m "sensorType" t ∧ Says m "scaleBitMask" mask

/-- Sensors 1 and 5 have the scales 1 and 3. The answer for sensor 5 is late: the interview ends, and in the next one it comes when sensor 1 is asked for. -/
def lateScales : List (Op Classes.Sensor.State) :=
  [.interview, .versionAnswer 0 (.ok 5), .answer 0 (decode [0x31, 0x02, 0x11]), .answer 0 (decode [0x31, 0x06, 0x01, 0x01]), .answer 0 (.error .timeout),
   .interview, .answer 1 (decode [0x31, 0x02, 0x11]), .answer 1 (decode [0x31, 0x06, 0x05, 0x03])]

theorem C150_violated : ¬ C150_statement := by
  intro h
  obtain ⟨m, hm, h1, h2⟩ := h 0x31 lateScales (by simp [OnlyAsked, lateScales]) 1 3 (by decide +kernel)
  have : ∀ m ∈ reports (run sensor (fresh 0x31 ⟨0, []⟩) lateScales).trace, ¬ (Classes.needNum m "sensorType" = .ok 1 ∧ Classes.needNum m "scaleBitMask" = .ok 3) := by decide +kernel
  exact this m hm ⟨h1, h2⟩

/-- **C150**, when it holds: if each answer to a question for the scales of a sensor is for this sensor. -/
theorem C150_partial (id : Nat) (ops : List (Op Classes.Sensor.State)) (ho : OnlyAsked ops)
    (hm : ∀ x ∈ scales (run sensor (fresh id ⟨0, []⟩) ops).trace, Says x.2 "sensorType" x.1) (t mask : Int) (h : (run sensor (fresh id ⟨0, []⟩) ops).attrs.types.get? t = some mask) :
    ∃ m ∈ reports (run sensor (fresh id ⟨0, []⟩) ops).trace, Says m "sensorType" t ∧ Says m "scaleBitMask" mask := by
  rw [sensor_history id _ ops ho] at h
  obtain ⟨x, hx, rfl, h'⟩ := learn_last _ t mask h
  refine ⟨x.2, ?_, hm x hx, h'⟩
  simp only [scales, List.mem_filterMap, reports] at hx ⊢
  obtain ⟨e, he, hx⟩ := hx
  refine ⟨e, he, ?_⟩
  revert hx
  split
  · intro hx; cases hx; rename_i hi; rw [hi]
  · intro hx; cases hx

/-- **C150**, what is held in any case: the latest complete report that came when this sensor was asked for. -/
theorem C150_latest_partial (id : Nat) (a : Classes.Sensor.State) (ops : List (Op Classes.Sensor.State)) (ho : OnlyAsked ops) (l l' : List (Nat × Msg)) (t : Nat) (m : Msg) (mask : Int)
    (hl : scales (run sensor (fresh id a) ops).trace = l ++ (t, m) :: l') (hm : Says m "scaleBitMask" mask) (hl' : ∀ x ∈ l', x.1 ≠ t) :
    (run sensor (fresh id a) ops).attrs.types.get? t = some mask := by
  rw [sensor_history id a ops ho, hl, List.foldl_append, List.foldl_cons]
  generalize l.foldl learn a.types = d
  have : (learn d (t, m)).get? t = some mask := by simp only [Says] at hm; simp [learn, hm]
  generalize learn d (t, m) = d' at this ⊢
  clear hl
  induction l' generalizing d' with
  | nil => exact this
  | cons x xs ih =>
    refine ih (fun y hy => hl' y (List.mem_cons_of_mem _ hy)) _ ?_
    have hx := hl' x (List.mem_cons_self ..)
    simp only [learn]
    split
    · rw [Dict.get?_set, if_neg fun e => hx (by exact_mod_cast e)]; exact this
    · exact this

/-- A node that answers in time. -/
example : let s := run sensor (fresh 0x31 ⟨0, []⟩) [.interview, .versionAnswer 0 (.ok 5), .answer 0 (decode [0x31, 0x02, 0x11]), .answer 0 (decode [0x31, 0x06, 0x01, 0x01]),
      .answer 0 (decode [0x31, 0x06, 0x05, 0x03])]
    s.attrs.types = [(1, 1), (5, 3)] ∧ s.dec.interviewed = true ∧ ∀ x ∈ scales s.trace, Classes.needNum x.2 "sensorType" = .ok (x.1 : Int) := by decide +kernel

end Props.ClassRun

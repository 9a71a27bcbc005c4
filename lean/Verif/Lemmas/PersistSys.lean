import Verif.Lemmas.Persist
import Verif.Lemmas.Objects
/-! Helper lemmas: the storage, the application and the node objects together. -/
namespace Model.Persist
open Model Model.Storage Spec.Storage Spec.Persist Lemmas.App

variable {lib : Yaml}

theorem keys_restore (sup : Dict Str L) (n : Classes) : Dict.keys (restore sup n).1 = Dict.keys n := by
  induction n with
  | nil => rfl
  | cons p n ih =>
    obtain ⟨id, c⟩ := p
    unfold restore
    split
    · simp only [Dict.keys, List.map_cons] at ih ⊢; rw [ih]
    · split
      · rfl
      · simp only [Dict.keys, List.map_cons] at ih ⊢; rw [ih]

theorem keys_added (fs : Files lib) (id : Str) (n : Classes) : Dict.keys (nodeAdded lib fs id n).1 = Dict.keys n := by
  unfold nodeAdded
  split
  · rfl
  · split
    · rfl
    · split
      · rfl
      · exact keys_restore _ _
      · rfl
    · rfl

/-! ## What the storage hears -/

theorem hear_frame (s : Sys lib) (e : App.Ev) : (hear s e).app = s.app ∧ (hear s e).files = s.files ∧ (hear s e).saves = s.saves := by
  unfold hear
  split
  · split <;> exact ⟨rfl, rfl, rfl⟩
  · exact ⟨rfl, rfl, rfl⟩

theorem hears_frame (l : List App.Ev) : ∀ s : Sys lib, (l.foldl hear s).app = s.app ∧ (l.foldl hear s).files = s.files ∧ (l.foldl hear s).saves = s.saves := by
  induction l with
  | nil => intro s; exact ⟨rfl, rfl, rfl⟩
  | cons e l ih =>
    intro s
    obtain ⟨h1, h2, h3⟩ := ih (hear s e)
    obtain ⟨g1, g2, g3⟩ := hear_frame s e
    exact ⟨h1.trans g1, h2.trans g2, h3.trans g3⟩

/-- A node object before and after the storage has heard something. -/
def Heard (fs : Files lib) (a b : Str × Nod) : Prop := b.1 = a.1 ∧ (b.2 = a.2 ∨ b.2 = { a.2 with classes := (nodeAdded lib fs a.1 a.2.classes).1 })

theorem hear_objs (s : Sys lib) (e : App.Ev) (k : Nat) :
    Dict.get? (hear s e).objs k = Dict.get? s.objs k ∨ ∃ i nd x, e = .added i nd ∧ nd.obj = k ∧ Dict.get? s.objs k = some x ∧
      Dict.get? (hear s e).objs k = some (x.1, { x.2 with classes := (nodeAdded lib s.files x.1 x.2.classes).1 }) := by
  unfold hear
  split
  · rename_i i nd
    split
    · exact .inl rfl
    · rename_i x hx
      by_cases h : nd.obj = k
      · right
        refine ⟨i, nd, x, rfl, h, h ▸ hx, ?_⟩
        simp only [Dict.get?_set, if_pos h]
      · left
        simp only [Dict.get?_set, if_neg h]
  · exact .inl rfl

/-- Anything that hearing preserves. -/
theorem hears_keep (l : List App.Ev) (k : Nat) (Q : Str × Nod → Prop) : ∀ s : Sys lib,
    (∀ x, Q x → Q (x.1, { x.2 with classes := (nodeAdded lib s.files x.1 x.2.classes).1 })) →
    ∀ x, Dict.get? s.objs k = some x → Q x → ∃ y, Dict.get? (l.foldl hear s).objs k = some y ∧ Q y := by
  induction l with
  | nil => intro s _ x hx hq; exact ⟨x, hx, hq⟩
  | cons e l ih =>
    intro s hQ x hx hq
    have hf := (hear_frame s e).2.1
    rcases hear_objs s e k with h | ⟨i, nd, y, _, _, h3, h4⟩
    · exact ih (hear s e) (by rw [hf]; exact hQ) x (h.trans hx) hq
    · rw [h3] at hx
      cases hx
      exact ih (hear s e) (by rw [hf]; exact hQ) _ h4 (hQ _ hq)

theorem hears_none (l : List App.Ev) (k : Nat) : ∀ s : Sys lib, Dict.get? s.objs k = none → Dict.get? (l.foldl hear s).objs k = none := by
  induction l with
  | nil => intro s h; exact h
  | cons e l ih =>
    intro s h
    refine ih _ ?_
    rcases hear_objs s e k with g | ⟨i, nd, y, _, _, h3, h4⟩
    · exact g.trans h
    · rw [h] at h3; cases h3

/-- If the storage hears that a node was added, the object has been loaded. -/
theorem hears_added (l : List App.Ev) (Q : Str × Nod → Prop) {i : Nat} {nd : App.Nd} : ∀ s : Sys lib, .added i nd ∈ l →
    (∀ x : Str × Nod, x.1 = nd.id → Q (x.1, { x.2 with classes := (nodeAdded lib s.files x.1 x.2.classes).1 })) →
    ∀ x, Dict.get? s.objs nd.obj = some x → x.1 = nd.id → ∃ y, Dict.get? (l.foldl hear s).objs nd.obj = some y ∧ y.1 = nd.id ∧ Q y := by
  induction l with
  | nil => intro s h; cases h
  | cons e l ih =>
    intro s hm hQ x hx hid
    have hf := (hear_frame s e).2.1
    rcases List.mem_cons.1 hm with rfl | hm
    · have h4 : Dict.get? (hear s (.added i nd)).objs nd.obj = some (x.1, { x.2 with classes := (nodeAdded lib s.files x.1 x.2.classes).1 }) := by
        unfold hear
        simp only [hx, Dict.get?_set, if_true]
      obtain ⟨y, h1, h2, h3⟩ := hears_keep l nd.obj (fun y => y.1 = nd.id ∧ Q y) (hear s (.added i nd)) (by rw [hf]; exact fun y hy => ⟨hy.1, hQ y hy.1⟩) _ h4 ⟨hid, hQ x hid⟩
      exact ⟨y, h1, h2, h3⟩
    · rcases hear_objs s e nd.obj with h | ⟨_, _, y, _, _, h3, h4⟩
      · exact ih (hear s e) hm (by rw [hf]; exact hQ) x (h.trans hx) hid
      · rw [h3] at hx
        cases hx
        exact ih (hear s e) hm (by rw [hf]; exact hQ) _ h4 hid

/-! ## Objects -/

/-- The node is an object, under its id and with its command classes. -/
def Known (s : Sys lib) (nd : App.Nd) : Prop :=
  nd.obj < s.app.objs ∧ ∃ n, Dict.get? s.objs nd.obj = some (nd.id, n) ∧ Dict.keys n.classes = supported nd.info

/-- What always holds. -/
structure Inv (s : Sys lib) : Prop where
  known : V (Known s) s.app
  objs : ∀ k, s.app.objs ≤ k → Dict.get? s.objs k = none

theorem step_app (s : Sys lib) (o : App.Op) : (s.step (.app o)).app = App.step s.app o ∧ (s.step (.app o)).files = s.files ∧ (s.step (.app o)).saves = s.saves :=
  hears_frame _ _

/-- The objects after an operation of the application has created one or none, before the storage has heard. -/
def entered (s : Sys lib) (o : App.Op) : Dict Nat (Str × Nod) :=
  (created s.app (App.step s.app o)).foldl (fun d nd => Dict.set d nd.obj (nd.id, Nod.fresh (supported nd.info))) s.objs

theorem foldl_const {l : List App.Nd} {nd : App.Nd} (hl : ∀ x ∈ l, x = nd) (k : Nat) : ∀ d : Dict Nat (Str × Nod),
    Dict.get? (l.foldl (fun d nd => Dict.set d nd.obj (nd.id, Nod.fresh (supported nd.info))) d) k =
      if l ≠ [] ∧ nd.obj = k then some (nd.id, Nod.fresh (supported nd.info)) else Dict.get? d k := by
  induction l with
  | nil => intro d; simp
  | cons x l ih =>
    intro d
    obtain rfl := hl x (by simp)
    rw [List.foldl_cons, ih (fun y hy => hl y (List.mem_cons_of_mem _ hy)), Dict.get?_set]
    by_cases h : x.obj = k
    · simp [h]
    · simp [h]

theorem mem_set_self {κ α : Type} [DecidableEq κ] (d : Dict κ α) (k : κ) (v : α) : (k, v) ∈ Dict.set d k v :=
  Dict.mem_of_get? (by rw [Dict.get?_set, if_pos rfl])

/-- An operation of the application creates no object, or one, with fresh command classes. -/
theorem entered_cases {s : Sys lib} (h : Inv s) (o : App.Op) :
    (entered s o = s.objs ∧ (App.step s.app o).objs = s.app.objs ∧ ∀ p ∈ (App.step s.app o).nodes, p ∈ s.app.nodes) ∨
    ∃ nd, nd.obj = s.app.objs ∧ (App.step s.app o).objs = s.app.objs + 1 ∧ (App.step s.app o).nodes = s.app.nodes.set nd.id nd ∧
      ∀ k, Dict.get? (entered s o) k = if nd.obj = k then some (nd.id, Nod.fresh (supported nd.info)) else Dict.get? s.objs k := by
  have hg := (v_step (P := fun _ => True) ⟨by simp, by simp, by simp⟩ (s := s.app) o (by simp)).2
  rcases hg with ⟨h1, h2⟩ | ⟨nd, h1, h2, h3⟩
  · refine .inl ⟨?_, h2, h1⟩
    have : created s.app (App.step s.app o) = [] := by
      unfold created
      rw [List.filter_eq_nil_iff]
      intro x hx
      obtain ⟨p, hp, rfl⟩ := List.mem_map.1 hx
      have := (h.known.table p (h1 p hp)).1
      simp; omega
    unfold entered
    rw [this]
    rfl
  · refine .inr ⟨nd, h1, h3, h2, fun k => ?_⟩
    have hall : ∀ x ∈ created s.app (App.step s.app o), x = nd := by
      intro x hx
      unfold created at hx
      rw [h2] at hx
      obtain ⟨hx, hge⟩ := List.mem_filter.1 hx
      obtain ⟨⟨q, y⟩, hp, rfl⟩ := List.mem_map.1 hx
      rcases mem_set hp with hp | ⟨_, rfl⟩
      · have := (h.known.table _ hp).1
        simp only [decide_eq_true_eq] at hge this
        omega
      · rfl
    have hne : created s.app (App.step s.app o) ≠ [] := by
      intro he
      have : nd ∈ created s.app (App.step s.app o) := by
        unfold created
        rw [h2]
        refine List.mem_filter.2 ⟨List.mem_map.2 ⟨_, mem_set_self _ _ _, rfl⟩, by simp [h1]⟩
      rw [he] at this
      cases this
    unfold entered
    rw [foldl_const hall]
    simp [hne]

theorem inv_start (own : Nat) (files : Files lib) : Inv (Sys.start lib own files) :=
  ⟨⟨by simp [Sys.start, App.fresh], by simp [Sys.start, App.fresh], by simp [Sys.start, App.fresh]⟩, fun _ _ => rfl⟩

theorem inv_app {s : Sys lib} (h : Inv s) (o : App.Op) : Inv (s.step (.app o)) ∧
    V (fun nd => nd.obj < (App.step s.app o).objs ∧ ∃ n, Dict.get? (entered s o) nd.obj = some (nd.id, n) ∧ Dict.keys n.classes = supported nd.info) (App.step s.app o) := by
  have hV : V (fun nd => nd.obj < (App.step s.app o).objs ∧ ∃ n, Dict.get? (entered s o) nd.obj = some (nd.id, n) ∧ Dict.keys n.classes = supported nd.info) (App.step s.app o) := by
    rcases entered_cases h o with ⟨h1, h2, _⟩ | ⟨x, h1, h2, h3, h4⟩
    · refine (v_step (h.known.mono ?_) o ?_).1
      · intro nd hn; rw [h1, h2]; exact hn
      · intro nd _ _ he; rw [h2] at he; omega
    · refine (v_step (h.known.mono ?_) o ?_).1
      · rintro nd ⟨g1, n, g2, g3⟩
        refine ⟨by omega, n, ?_, g3⟩
        rw [h4, if_neg (by omega)]
        exact g2
      · intro nd g1 g2 _
        have : nd = x := by
          have hm : (nd.id, nd) ∈ s.app.nodes.set x.id x := by rw [← h3, g2]; exact mem_set_self _ _ _
          rcases mem_set hm with hm | ⟨_, e⟩
          · have := (h.known.table _ hm).1
            simp only at this; omega
          · exact e
        subst this
        exact ⟨by omega, _, by rw [h4, if_pos rfl], keys_fresh _⟩
  refine ⟨⟨?_, ?_⟩, hV⟩
  · rw [(step_app s o).1]
    refine hV.mono ?_
    rintro nd ⟨g1, n, g2, g3⟩
    refine ⟨by rw [(step_app s o).1]; exact g1, ?_⟩
    obtain ⟨⟨y1, y2⟩, k1, k2, k3⟩ := hears_keep (lib := lib) ((App.step s.app o).trace.drop s.app.trace.length) nd.obj
      (fun y => y.1 = nd.id ∧ Dict.keys y.2.classes = supported nd.info) { s with app := App.step s.app o, objs := entered s o }
      (fun x hx => ⟨hx.1, by simpa [keys_added] using hx.2⟩) _ g2 ⟨rfl, g3⟩
    simp only at k2 k3
    subst k2
    exact ⟨y2, k1, k3⟩
  · intro k hk
    rw [(step_app s o).1] at hk
    refine hears_none _ k { s with app := App.step s.app o, objs := entered s o } ?_
    rcases entered_cases h o with ⟨h1, h2, _⟩ | ⟨x, h1, h2, h3, h4⟩
    · simp only [h1]; exact h.objs k (by omega)
    · simp only [h4]; rw [if_neg (by omega)]; exact h.objs k (by omega)

theorem inv_node {s : Sys lib} (h : Inv s) (obj : Nat) (o : Op) : Inv (s.step (.node obj o)) := by
  simp only [Sys.step]
  split
  · exact h
  · rename_i x hx
    refine ⟨h.known.mono ?_, fun k hk => ?_⟩
    · rintro nd ⟨g1, n, g2, g3⟩
      refine ⟨g1, ?_⟩
      simp only [Dict.get?_set]
      split
      · rename_i he
        subst he
        rw [hx] at g2
        cases g2
        exact ⟨_, rfl, by rw [nodeStep_classes, keys_change]; exact g3⟩
      · exact ⟨n, g2, g3⟩
    · simp only [Dict.get?_set]
      have := h.objs k hk
      rw [if_neg]
      · exact this
      · rintro rfl
        rw [hx] at this; cases this

theorem inv_step {s : Sys lib} (h : Inv s) (o : SysOp) : Inv (s.step o) := by
  cases o with
  | app o => exact (inv_app h o).1
  | node obj o => exact inv_node h obj o

theorem inv_run (own : Nat) (files : Files lib) (ops : List SysOp) : Inv ((Sys.start lib own files).run ops) := by
  induction ops using Model.Conn.snoc_ind with
  | nil => exact inv_start own files
  | snoc ops o ih => rw [Sys.run, List.foldl_append]; exact inv_step ih o

/-! ## Files -/

theorem files_run (files : Files lib) (own : Nat) (ops : List SysOp) (id : Str) (h : id ∉ ((Sys.start lib own files).run ops).saves) :
    Dict.get? ((Sys.start lib own files).run ops).files (pathFor id) = Dict.get? files (pathFor id) := by
  induction ops using Model.Conn.snoc_ind with
  | nil => rfl
  | snoc ops o ih =>
    rw [Sys.run, List.foldl_append] at h ⊢
    simp only [List.foldl_cons, List.foldl_nil] at h ⊢
    change id ∉ (Sys.step (Sys.run _ ops) o).saves at h
    change Dict.get? (Sys.step (Sys.run _ ops) o).files _ = _
    cases o with
    | app o => rw [(step_app _ o).2.1]; rw [(step_app _ o).2.2] at h; exact ih h
    | node obj o =>
      simp only [Sys.step] at h ⊢
      split at h
      · exact ih h
      · simp only
        split at h
        · rename_i ht
          simp only [List.mem_append, List.mem_singleton, not_or] at h
          rw [if_pos ht, nodeUpdated, Dict.get?_set, if_neg (pathFor_ne (Ne.symm h.2))]
          exact ih h.1
        · rename_i ht
          rw [if_neg ht]
          exact ih h

/-- What happens to the application. -/
def appOps (ops : List SysOp) : List App.Op := ops.filterMap fun o => match o with
  | .app o => some o
  | .node _ _ => none

theorem app_run (s : Sys lib) (ops : List SysOp) : (s.run ops).app = App.run s.app (appOps ops) := by
  induction ops generalizing s with
  | nil => rfl
  | cons o ops ih =>
    change ((s.step o).run ops).app = _
    rw [ih]
    cases o with
    | app o => rw [(step_app s o).1]; rfl
    | node obj o =>
      have : (s.step (.node obj o)).app = s.app := by simp only [Sys.step]; split <;> rfl
      rw [this]
      rfl

/-! ## Replaying what happens to the application -/

/-- A node is created, or the storage hears of it. -/
inductive Act
  | made (nd : App.Nd)
  | heard (nd : App.Nd)
  deriving DecidableEq

def acts (a : App.State) : List App.Op → List Act
  | [] => []
  | o :: os => (created a (App.step a o)).map .made ++
      ((App.step a o).trace.drop a.trace.length).filterMap (fun e => match e with | .added _ nd => some (.heard nd) | _ => none) ++ acts (App.step a o) os

def Act.run (s : Sys lib) : Act → Sys lib
  | .made nd => { s with objs := Dict.set s.objs nd.obj (nd.id, Nod.fresh (supported nd.info)) }
  | .heard nd => hear s (.added 0 nd)

theorem act_app (b : App.State) (l : List Act) : ∀ s : Sys lib, { l.foldl Act.run s with app := b } = l.foldl Act.run { s with app := b } := by
  induction l with
  | nil => intro s; rfl
  | cons a l ih =>
    intro s
    rw [List.foldl_cons, ih, List.foldl_cons]
    congr 1
    cases a with
    | made nd => rfl
    | heard nd => simp only [Act.run, hear]; split <;> rfl

theorem acts_saves (l : List Act) : ∀ s : Sys lib, (l.foldl Act.run s).saves = s.saves := by
  induction l with
  | nil => intro s; rfl
  | cons a l ih =>
    intro s
    rw [List.foldl_cons, ih]
    cases a with
    | made nd => rfl
    | heard nd => exact (hear_frame s _).2.2

theorem run_acts (os : List App.Op) : ∀ s : Sys lib, s.run (os.map .app) = (acts s.app os).foldl Act.run { s with app := App.run s.app os } := by
  induction os with
  | nil => intro s; rfl
  | cons o os ih =>
    intro s
    change (s.step (.app o)).run (os.map .app) = _
    rw [ih, (step_app s o).1]
    simp only [acts, List.foldl_append]
    congr 1
    have hm : ∀ (l : List App.Nd) (s : Sys lib), (l.map Act.made).foldl Act.run s =
        { s with objs := l.foldl (fun d nd => Dict.set d nd.obj (nd.id, Nod.fresh (supported nd.info))) s.objs } := by
      intro l
      induction l with
      | nil => intro s; rfl
      | cons x l ih => intro s; rw [List.map_cons, List.foldl_cons, ih]; rfl
    have hh : ∀ (l : List App.Ev) (s : Sys lib), (l.filterMap (fun e => match e with | .added _ nd => some (Act.heard nd) | _ => none)).foldl Act.run s = l.foldl hear s := by
      intro l
      induction l with
      | nil => intro s; rfl
      | cons e l ih => intro s; cases e <;> simp only [List.filterMap_cons, List.foldl_cons] <;> rw [ih] <;> rfl
    rw [hm, hh]
    have ha : ∀ (l : List App.Ev) (b : App.State) (s : Sys lib), { l.foldl hear s with app := b } = l.foldl hear { s with app := b } := by
      intro l b
      induction l with
      | nil => intro s; rfl
      | cons e l ih =>
        intro s
        rw [List.foldl_cons, ih, List.foldl_cons]
        congr 1
        cases e <;> simp only [hear] <;> split <;> rfl
    simp only [Sys.step]
    rw [ha]
    rfl

/-! ## Nodes that were never saved -/

/-- All command classes are as created. -/
def AllFresh (n : Nod) : Prop := ∀ c st, Dict.get? n.classes c = some st → st = .fresh

theorem allFresh_fresh (ids : List Nat) : AllFresh (Nod.fresh ids) := by
  intro c st hc
  have hm := Dict.mem_of_get? hc
  simp only [Nod.fresh, List.mem_map, Prod.mk.injEq] at hm
  obtain ⟨_, _, _, rfl⟩ := hm
  rfl

/-- Saves are not forgotten. -/
theorem saves_step (s : Sys lib) (o : SysOp) {id : Str} (h : id ∉ (s.step o).saves) : id ∉ s.saves := by
  cases o with
  | app o => rwa [(step_app s o).2.2] at h
  | node obj o =>
    simp only [Sys.step] at h
    split at h
    · exact h
    · simp only at h
      split at h
      · exact fun hm => h (List.mem_append_left _ hm)
      · exact h

theorem fresh_run (own : Nat) (files : Files lib) (ops : List SysOp) (k : Nat) : ∀ (x : Str × Nod), Dict.get? ((Sys.start lib own files).run ops).objs k = some x →
    x.1 ∉ ((Sys.start lib own files).run ops).saves → Dict.get? files (pathFor x.1) = none → (∀ o, .node k o ∉ ops) → AllFresh x.2 := by
  induction ops using Model.Conn.snoc_ind with
  | nil => intro x hx; cases hx
  | snoc ops o ih =>
    intro x hx hs hf hn
    rw [Sys.run, List.foldl_append] at hx hs
    change Dict.get? (Sys.step (Sys.run _ ops) o).objs k = some x at hx
    change x.1 ∉ (Sys.step (Sys.run _ ops) o).saves at hs
    have hs' := saves_step _ o hs
    have hn' : ∀ o, SysOp.node k o ∉ ops := fun o ho => hn o (List.mem_append_left _ ho)
    have hfile := (files_run files own ops x.1 hs').trans hf
    have hI := inv_run own files ops
    generalize (Sys.start lib own files).run ops = s at *
    cases o with
    | node obj o =>
      have hne : obj ≠ k := by rintro rfl; exact hn o (by simp)
      simp only [Sys.step] at hx
      split at hx
      · exact ih x hx hs' hf hn'
      · rw [Dict.get?_set_ne _ _ hne] at hx
        exact ih x hx hs' hf hn'
    | app o =>
      have key : ∀ y, Dict.get? (entered s o) k = some y → y.1 = x.1 → AllFresh y.2 := by
        intro y hy he
        rcases entered_cases hI o with ⟨h1, _, _⟩ | ⟨nd, _, _, _, h4⟩
        · rw [h1] at hy
          exact ih y hy (he ▸ hs') (he ▸ hf) hn'
        · rw [h4] at hy
          split at hy
          · cases hy; exact allFresh_fresh _
          · exact ih y hy (he ▸ hs') (he ▸ hf) hn'
      cases hy : Dict.get? (entered s o) k with
      | none =>
        have := hears_none ((App.step s.app o).trace.drop s.app.trace.length) k { s with app := App.step s.app o, objs := entered s o } hy
        rw [show Dict.get? (s.step (.app o)).objs k = none from this] at hx
        cases hx
      | some y =>
        obtain ⟨z, h1, h2, h3⟩ := hears_keep ((App.step s.app o).trace.drop s.app.trace.length) k (fun z => z.1 = y.1 ∧ (y.1 = x.1 → AllFresh z.2))
          { s with app := App.step s.app o, objs := entered s o } (by
            rintro ⟨_, z⟩ ⟨rfl, hz⟩
            refine ⟨rfl, fun he => ?_⟩
            have : nodeAdded lib s.files y.1 z.classes = (z.classes, .ok ()) := by
              unfold nodeAdded
              rw [he, hfile]
            simp only [this]
            exact hz he) y hy ⟨rfl, fun he => key y hy he⟩
        have e : some z = some x := h1.symm.trans hx
        cases e
        exact h3 h2.symm

end Model.Persist

import Verif.Spec.Persist
import Verif.Lemmas.Storage
/-! Helper lemmas about settings over time. -/
namespace Model.Persist
open Model.Storage Model.Classes Spec.Storage Spec.Persist

theorem keys_onClass (n : Classes) (c : Nat) (f : ClassState → ClassState × Bool) : Dict.keys (onClass n c f).1 = Dict.keys n := by
  unfold onClass
  split
  · rfl
  · rename_i s hs
    rw [Dict.keys_set, if_pos ((Dict.get?_isSome_iff _ _).1 (by simp [hs]))]

theorem get_onClass (n : Classes) (c : Nat) (f : ClassState → ClassState × Bool) (d : Nat) :
    Dict.get? (onClass n c f).1 d = if c = d then (Dict.get? n d).map fun s => (f s).1 else Dict.get? n d := by
  unfold onClass
  split
  · rename_i h
    split
    · rename_i e; subst e; rw [h]; rfl
    · rfl
  · rename_i s hs
    rw [Dict.get?_set]
    split
    · rename_i e; subst e; rw [hs]; rfl
    · rfl

theorem mem_get {n : Classes} (h : (Dict.keys n).Nodup) {c : Nat} {st : ClassState} : (c, st) ∈ n ↔ Dict.get? n c = some st :=
  ⟨get?_of_mem h, Dict.mem_of_get?⟩

theorem ok_onClass {n : Classes} (h : NodeOk n) (c : Nat) (f : ClassState → ClassState × Bool)
    (hf : ∀ s, Typed (attrsOf c) s.attrs → Typed (attrsOf c) (f s).1.attrs) : NodeOk (onClass n c f).1 := by
  have hk : (Dict.keys (onClass n c f).1).Nodup := by rw [keys_onClass]; exact h.1
  refine ⟨hk, fun id st hm => ?_⟩
  have := (mem_get hk).1 hm
  rw [get_onClass] at this
  split at this
  · rename_i e; subst e
    cases hg : Dict.get? n c with
    | none => rw [hg] at this; cases this
    | some s =>
      rw [hg] at this
      cases this
      exact hf s (h.2 c s (Dict.mem_of_get? hg))
  · exact h.2 id st (Dict.mem_of_get? this)

theorem typed_set {types : List (String × AttrTy)} {d : Dict String Attr} (h : Typed types d) {name : String} {t : AttrTy} (ht : (name, t) ∈ types) {a : Attr} (ha : AttrOk t a) :
    Typed types (Dict.set d name a) := by
  have hk := Dict.nodup_set (k := name) (v := a) h.1
  refine ⟨hk, fun n v hm => ?_⟩
  have := get?_of_mem hk hm
  rw [Dict.get?_set] at this
  split at this
  · rename_i e; cases this; subst e; exact ⟨t, ht, ha⟩
  · exact h.2 n v (Dict.mem_of_get? this)

theorem recsOf_ok {name : String} {fields : List (String × LeafTy)} {c : ClassState} (h : Typed [(name, .recs fields)] c.attrs) : AttrOk (.recs fields) (.recs (recsOf c name)) := by
  unfold recsOf
  split
  · rename_i d hd
    obtain ⟨t, ht, hok⟩ := h.2 _ _ (Dict.mem_of_get? hd)
    simp only [List.mem_cons, List.not_mem_nil, or_false, Prod.mk.injEq, true_and] at ht
    subst ht
    exact hok
  · exact ⟨by simp [Dict.keys], fun k r hm => by cases hm⟩

theorem recs_set {fields : List (String × LeafTy)} {d : Dict Int (Dict String Leaf)} (h : AttrOk (.recs fields) (.recs d)) {k : Int} {r : Dict String Leaf} (hr : RecOk fields r) :
    AttrOk (.recs fields) (.recs (Dict.set d k r)) := by
  have hk := Dict.nodup_set (k := k) (v := r) h.1
  refine ⟨hk, fun k' r' hm => ?_⟩
  have := get?_of_mem hk hm
  rw [Dict.get?_set] at this
  split at this
  · cases this; exact hr
  · exact h.2 k' r' (Dict.mem_of_get? this)

theorem rec_set {fields : List (String × LeafTy)} {r : Dict String Leaf} (h : RecOk fields r) {name : String} {t : LeafTy} (ht : (name, t) ∈ fields) {v : Leaf} (hv : LeafOk t v) :
    RecOk fields (Dict.set r name v) := by
  have hk := Dict.nodup_set (k := name) (v := v) h.1
  refine ⟨hk, fun n w hm => ?_⟩
  have := get?_of_mem hk hm
  rw [Dict.get?_set] at this
  split at this
  · rename_i e; cases this; subst e; exact ⟨t, ht, hv⟩
  · exact h.2 n w (Dict.mem_of_get? this)

theorem rec_nil (fields : List (String × LeafTy)) : RecOk fields [] := ⟨by simp [Dict.keys], fun n v hm => by cases hm⟩

theorem rec_get {fields : List (String × LeafTy)} {d : Dict Int (Dict String Leaf)} (h : AttrOk (.recs fields) (.recs d)) (k : Int) : RecOk fields ((Dict.get? d k).getD []) := by
  cases hg : Dict.get? d k with
  | none => exact rec_nil _
  | some r => exact h.2 k r (Dict.mem_of_get? hg)

theorem ok_config {c : ClassState} (h : Typed (attrsOf 0x70) c.attrs) (m : Msg) : Typed (attrsOf 0x70) (configReport c m).1.attrs := by
  have e : attrsOf 0x70 = [("parameters", .recs [("value", .num), ("size", .num)])] := rfl
  rw [e] at h ⊢
  have hr := recsOf_ok h
  have hput : ∀ n r, RecOk [("value", .num), ("size", .num)] r →
      Typed [("parameters", .recs [("value", .num), ("size", .num)])] (ClassState.put c "parameters" (Dict.set (recsOf c "parameters") n r)).attrs :=
    fun n r hrr => typed_set h (by simp) (recs_set hr hrr)
  unfold configReport
  split
  · exact h
  · simp only
    split
    · exact hput _ _ (rec_get hr _)
    · split
      · exact hput _ _ (rec_set (rec_get hr _) (name := "value") (t := .num) (by simp) (v := .num _) trivial)
      · exact hput _ _ (rec_set (rec_set (rec_get hr _) (name := "value") (t := .num) (by simp) (v := .num _) trivial) (name := "size") (t := .num) (by simp) (v := .num _) trivial)

theorem ok_group {c : ClassState} (h : Typed (attrsOf 0x59) c.attrs) (g : Int) {name : String} {t : LeafTy} (ht : (name, t) ∈ [("name", LeafTy.text), ("profile", .num), ("commands", .list)])
    {v : Leaf} (hv : LeafOk t v) : Typed (attrsOf 0x59) (groupAttr c g name v).attrs := by
  have e : attrsOf 0x59 = [("groupings", .recs [("name", .text), ("profile", .num), ("commands", .list)])] := rfl
  unfold groupAttr
  split
  · exact h
  · rename_i r hr
    rw [e] at h ⊢
    exact typed_set h (by simp) (recs_set (recsOf_ok h) (rec_set ((recsOf_ok h).2 g r (Dict.mem_of_get? hr)) ht hv))

/-- Attributes keep their types. -/
theorem ok_change {n : Classes} (h : NodeOk n) {o : Op} (ho : OpOk o) : NodeOk (change n o).1 := by
  cases o with
  | version c v => exact ok_onClass h c _ fun s hs => hs
  | begin c => exact ok_onClass h c _ fun s hs => hs
  | learn c a => exact ok_onClass h c _ fun s hs => ho
  | ended c d => exact ok_onClass h c _ fun s hs => hs
  | failed c => exact h
  | config m => exact ok_onClass h _ _ fun s hs => ok_config hs m
  | groupInfo g p =>
    refine ok_onClass h _ _ fun s hs => ?_
    have e : attrsOf 0x59 = [("groupings", .recs [("name", .text), ("profile", .num), ("commands", .list)])] := rfl
    rw [e] at hs ⊢
    exact typed_set hs (by simp) (recs_set (recsOf_ok hs) (rec_set (rec_nil _) (name := "profile") (t := .num) (by simp) trivial))
  | groupName g name => exact ok_onClass h _ _ fun s hs => ok_group hs g (t := .text) (by simp) trivial
  | groupCommands g l => exact ok_onClass h _ _ fun s hs => ok_group hs g (t := .list) (by simp) trivial
  | enter => exact h
  | leave => exact h

theorem keys_change (n : Classes) (o : Op) : Dict.keys (change n o).1 = Dict.keys n := by
  cases o <;> simp only [change] <;> first | exact keys_onClass _ _ _ | rfl

theorem nodeStep_classes (n : Nod) (o : Op) : (nodeStep n o).1.classes = (change n.classes o).1 := by
  unfold nodeStep; simp only; split <;> rfl

theorem ok_nodeStep {n : Nod} (h : NodeOk n.classes) {o : Op} (ho : OpOk o) : NodeOk (nodeStep n o).1.classes := by
  rw [nodeStep_classes]; exact ok_change h ho

theorem ok_run {lib : Yaml} {nodeId : Str} {ops : List Op} : ∀ {s : Nod × Files lib}, NodeOk s.1.classes → (∀ o ∈ ops, OpOk o) → NodeOk (run nodeId s ops).1.classes := by
  induction ops with
  | nil => intro s h _; exact h
  | cons o ops ih =>
    intro s h ho
    exact ih (s := step nodeId s o) (ok_nodeStep h (ho o (by simp))) (fun x hx => ho x (List.mem_cons_of_mem _ hx))

theorem keys_fresh (ids : List Nat) : Dict.keys (Nod.fresh ids).classes = ids := by simp [Nod.fresh, Dict.keys, Function.comp_def]

theorem ok_fresh {ids : List Nat} (h : ids.Nodup) : NodeOk (Nod.fresh ids).classes := by
  refine ⟨by rw [keys_fresh]; exact h, fun id c hm => ?_⟩
  simp only [Nod.fresh, List.mem_map, Prod.mk.injEq] at hm
  obtain ⟨_, _, _, rfl⟩ := hm
  exact ⟨by simp [ClassState.fresh, Dict.keys], fun n v hv => by simp [ClassState.fresh] at hv⟩

theorem fresh_blank (n : Classes) : Fresh (blank n) := by
  intro id c hm
  simp only [blank, List.mem_map, Prod.mk.injEq] at hm
  obtain ⟨_, _, _, rfl⟩ := hm
  rfl

theorem get_blank (n : Classes) (c : Nat) : Dict.get? (blank n) c = (Dict.get? n c).map fun _ => ClassState.fresh :=
  get?_map (fun k : Nat => k) (fun _ => ClassState.fresh) (fun _ _ e => e) n c

theorem blank_congr {a b : Classes} (h : Dict.keys a = Dict.keys b) : blank a = blank b := by
  have key : ∀ n : Classes, blank n = (Dict.keys n).map fun c => (c, ClassState.fresh) := by intro n; simp [blank, Dict.keys, Function.comp_def]
  rw [key, key, h]

theorem saved_after (lib : Yaml) (fs : Files lib) (nodeId : Str) {n : Classes} (h : NodeOk n) : Saved lib (nodeUpdated lib fs nodeId n) nodeId n := by
  obtain ⟨r, h1, _, h3⟩ := load_saved lib fs nodeId h (fresh_blank n)
  refine ⟨r, h1, fun c st hc => ?_⟩
  have := h3 c .fresh (by rw [get_blank, hc]; rfl)
  rw [hc] at this
  obtain ⟨a, g1, g2⟩ := this
  exact ⟨_, g1, rfl, g2⟩

/-- What is on disk depends only on versions and attributes. -/
theorem saved_congr {lib : Yaml} {fs : Files lib} {nodeId : Str} {a b : Classes} (h : Saved lib fs nodeId a) (hk : Dict.keys b = Dict.keys a)
    (hv : ∀ c st, Dict.get? b c = some st → ∃ st', Dict.get? a c = some st' ∧ st'.version = st.version ∧ st'.attrs = st.attrs) : Saved lib fs nodeId b := by
  obtain ⟨r, h1, h2⟩ := h
  refine ⟨r, by rw [blank_congr hk]; exact h1, fun c st hc => ?_⟩
  obtain ⟨st', g1, g2, g3⟩ := hv c st hc
  obtain ⟨x, k1, k2, k3⟩ := h2 c st' g1
  exact ⟨x, k1, k2.trans g2, g3 ▸ k3⟩

end Model.Persist

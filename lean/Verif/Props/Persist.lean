import Verif.Lemmas.PersistSys
import Verif.Model.Interview
/-!
# What is learned is saved, and what was saved is loaded
-/
namespace Props.Persist
open Model Model.Storage Model.Persist Spec.Storage Spec.Persist

/-! ## C118: what is learned is saved -/

/-- **C118**, in full: in every history of a node that starts without a file, whenever the storage is not locked and no interview is running, the settings of the node are on
disk. -/
def C118_statement (lib : Yaml) : Prop :=
  ∀ (nodeId : Str) (ids : List Nat) (ops : List Op), ids.Nodup → (∀ o ∈ ops, OpOk o) → Idle ops → (run (lib := lib) nodeId (Nod.fresh ids, []) ops).1.lock = .clean →
    Saved lib (run (lib := lib) nodeId (Nod.fresh ids, []) ops).2 nodeId (run (lib := lib) nodeId (Nod.fresh ids, []) ops).1.classes

theorem not_saved {lib : Yaml} {nodeId : Str} {n : Classes} {c : Nat} {st : ClassState} (hc : Dict.get? n c = some st) (hs : st.version ≠ 0 ∨ st.attrs ≠ []) :
    ¬ Saved lib [] nodeId n := by
  rintro ⟨r, h1, h2⟩
  obtain ⟨st', g1, g2, g3⟩ := h2 c st hc
  have e : r = blank n := by
    have : nodeAdded lib [] nodeId (blank n) = (blank n, .ok ()) := rfl
    rw [this] at h1; cases h1; rfl
  rw [e, get_blank, hc] at g1
  cases g1
  rcases hs with hs | hs
  · exact hs g2.symm
  · cases ha : st.attrs with
    | nil => exact hs ha
    | cons p l =>
      have := g3 p.1
      rw [ha] at this
      simp [attrsLoaded, ClassState.fresh, Dict.get?] at this

/-- **C118** is violated: what the reports of AssociationGrpInfo tell (here: that there is a group 1) is not saved. -/
theorem C118_violated (lib : Yaml) : ¬ C118_statement lib := by
  intro h
  have := h "5:0".toList [0x59] [.groupInfo 1 1] (by decide) (by simp [OpOk]) (fun c => rfl) rfl
  exact not_saved (c := 0x59) (st := ⟨0, false, [("groupings", .recs [(1, [("profile", .num 1)])])]⟩) rfl (.inr (by simp)) this

/-- Neither is what an interview learned before it timed out. -/
theorem C118_violated_interview (lib : Yaml) :
    ¬ Saved lib (run (lib := lib) "5:0".toList (Nod.fresh [0x31], []) [.begin 0x31, .learn 0x31 [("supportedTypes", .nums [(1, 3)])], .failed 0x31]).2 "5:0".toList
      (run (lib := lib) "5:0".toList (Nod.fresh [0x31], []) [.begin 0x31, .learn 0x31 [("supportedTypes", .nums [(1, 3)])], .failed 0x31]).1.classes :=
  not_saved (c := 0x31) (st := ⟨0, false, [("supportedTypes", .nums [(1, 3)])]⟩) rfl (.inr (by simp))

/-- And what was learned in a storage lock is not saved if another one was entered meanwhile, after both have been left. -/
theorem C118_violated_nested (lib : Yaml) :
    (run (lib := lib) "5:0".toList (Nod.fresh [0x86], []) [.enter, .version 0x86 2, .enter, .leave, .leave]).1.lock = .clean ∧
    ¬ Saved lib (run (lib := lib) "5:0".toList (Nod.fresh [0x86], []) [.enter, .version 0x86 2, .enter, .leave, .leave]).2 "5:0".toList
      (run (lib := lib) "5:0".toList (Nod.fresh [0x86], []) [.enter, .version 0x86 2, .enter, .leave, .leave]).1.classes :=
  ⟨rfl, not_saved (c := 0x86) (st := ⟨2, false, []⟩) rfl (.inl (by decide))⟩

/-- The operation makes a command class say that it was updated: a version report, an interview that has returned, a complete configuration report. -/
def Speaks (n : Classes) : Op → Prop
  | .version c _ => c ∈ Dict.keys n
  | .ended c _ => c ∈ Dict.keys n
  | .config m => 0x70 ∈ Dict.keys n ∧ Complete m
  | _ => False

theorem config_speaks (c : ClassState) (m : Msg) : (configReport c m).2 = true ↔ Complete m := by
  unfold configReport Complete
  cases Classes.needNum m "parameterNumber" with
  | error e => simp
  | ok n =>
    cases Classes.needNum m "value" with
    | error e => simp
    | ok v =>
      cases Classes.needNum m "size" with
      | error e => simp
      | ok z => simp

theorem onClass_speaks (n : Classes) (c : Nat) (f : ClassState → ClassState × Bool) : (onClass n c f).2 = true ↔ ∃ s, Dict.get? n c = some s ∧ (f s).2 = true := by
  unfold onClass
  split
  · rename_i h; simp [h]
  · rename_i s h; simp [h]

theorem mem_keys_iff {n : Classes} {c : Nat} : c ∈ Dict.keys n ↔ ∃ s, Dict.get? n c = some s := by
  rw [← Dict.get?_isSome_iff, Option.isSome_iff_exists]

theorem change_speaks (n : Classes) (o : Op) : (change n o).2 = true ↔ Speaks n o := by
  cases o <;> simp only [change, Speaks, onClass_speaks, mem_keys_iff, config_speaks] <;> simp

/-- When the files are written: a command class says that it was updated while the storage is not locked, or a lock is left in which one has said so. -/
theorem C118_when (n : Nod) (o : Op) : (nodeStep n o).2 = true ↔ (n.lock = .clean ∧ Speaks n.classes o) ∨ (n.lock = .lockedDirty ∧ o = .leave) := by
  have key : (change n.classes o).2 = true ↔ Speaks n.classes o := change_speaks n.classes o
  unfold nodeStep
  cases o with
  | enter => simp [lockOp, Node.storageStep, Speaks]
  | leave => cases hl : n.lock <;> simp [lockOp, Node.storageStep, Speaks]
  | _ =>
    simp only [lockOp]
    rw [← key]
    cases h : (change n.classes _).2 <;> cases hl : n.lock <;> simp [Node.storageStep]

/-- **C118**, partially: whenever the file is written, all settings of the node as they are then are on disk. -/
theorem C118_written_partial {lib : Yaml} {nodeId : Str} {n : Nod} (h : NodeOk n.classes) (fs : Files lib) {o : Op} (ho : OpOk o) (ht : (nodeStep n o).2 = true) :
    Saved lib (step nodeId (n, fs) o).2 nodeId (step nodeId (n, fs) o).1.classes := by
  simp only [step, ht, if_true]
  exact saved_after lib fs nodeId (ok_nodeStep h ho)

/-- An operation that says nothing and is not silent changes neither versions nor attributes. -/
theorem change_quiet {n : Classes} {o : Op} (hs : ¬ Silent o) (hq : ¬ Speaks n o) {c : Nat} {st : ClassState} (hc : Dict.get? (change n o).1 c = some st) :
    ∃ st', Dict.get? n c = some st' ∧ st'.version = st.version ∧ st'.attrs = st.attrs := by
  have same : ∀ {d : Nat} {f : ClassState → ClassState × Bool}, d ∉ Dict.keys n → Dict.get? (onClass n d f).1 c = some st → ∃ st', Dict.get? n c = some st' ∧ st'.version = st.version ∧ st'.attrs = st.attrs := by
    intro d f hd hg
    have : (onClass n d f).1 = n := by unfold onClass; rw [(Dict.get?_eq_none_iff _ _).2 hd]
    rw [this] at hg
    exact ⟨st, hg, rfl, rfl⟩
  cases o with
  | version d v => exact same hq hc
  | ended d x => exact same hq hc
  | begin d =>
    simp only [change, get_onClass] at hc
    split at hc
    · cases hg : Dict.get? n c with
      | none => rw [hg] at hc; cases hc
      | some s => rw [hg] at hc; cases hc; exact ⟨s, rfl, rfl, rfl⟩
    · exact ⟨st, hc, rfl, rfl⟩
  | failed d => exact ⟨st, hc, rfl, rfl⟩
  | enter => exact ⟨st, hc, rfl, rfl⟩
  | leave => exact ⟨st, hc, rfl, rfl⟩
  | config m =>
    exact same (fun hk => hs fun hm => hq ⟨hk, hm⟩) hc
  | learn d a => exact absurd trivial hs
  | groupInfo g p => exact absurd trivial hs
  | groupName g x => exact absurd trivial hs
  | groupCommands g l => exact absurd trivial hs

/-- One operation that is not silent, unless a lock is entered while another one has seen updates. -/
theorem keeps {lib : Yaml} {nodeId : Str} {s : Nod × Files lib} {o : Op} (h : NodeOk s.1.classes) (ho : OpOk o) (hs : ¬ Silent o) (he : o = .enter → s.1.lock ≠ .lockedDirty)
    (hi : s.1.lock ≠ .lockedDirty → Saved lib s.2 nodeId s.1.classes) : (step nodeId s o).1.lock ≠ .lockedDirty → Saved lib (step nodeId s o).2 nodeId (step nodeId s o).1.classes := by
  intro hl
  cases ht : (nodeStep s.1 o).2 with
  | true => exact C118_written_partial h s.2 ho ht
  | false =>
    have hne : s.1.lock ≠ .lockedDirty ∧ ¬ Speaks s.1.classes o := by
      have hw : ¬ _ := fun hh => by rw [(C118_when s.1 o).2 hh] at ht; cases ht
      rw [not_or] at hw
      have hl' : (nodeStep s.1 o).1.lock ≠ .lockedDirty := hl
      have key : (change s.1.classes o).2 = true ↔ Speaks s.1.classes o := change_speaks s.1.classes o
      unfold nodeStep at hl'
      cases o with
      | enter => exact ⟨he rfl, fun hh => hh⟩
      | leave => exact ⟨fun hh => hw.2 ⟨hh, rfl⟩, fun hh => hh⟩
      | _ =>
        simp only [lockOp] at hl'
        rw [← key] at hw ⊢
        cases hc : (change s.1.classes _).2 <;> rw [hc] at hl' hw <;> cases hlk : s.1.lock <;> simp_all [Node.storageStep]
    have := hi hne.1
    simp only [step, ht]
    refine saved_congr this (by rw [nodeStep_classes, keys_change]) fun c st hc => ?_
    rw [nodeStep_classes] at hc
    exact change_quiet hs hne.2 hc

/-- **C118**, partially: once the settings are on disk, and as long as there are no silent changes (reports of AssociationGrpInfo, incomplete configuration reports, attributes
set in interviews) and no lock is entered while another one has seen updates, they are on disk whenever the storage is not locked. -/
theorem C118_partial {lib : Yaml} {nodeId : Str} (ops : List Op) : ∀ {s : Nod × Files lib}, NodeOk s.1.classes → (∀ o ∈ ops, OpOk o ∧ ¬ Silent o) →
    (∀ p q, ops = p ++ .enter :: q → (run nodeId s p).1.lock ≠ .lockedDirty) → (s.1.lock ≠ .lockedDirty → Saved lib s.2 nodeId s.1.classes) →
    (run nodeId s ops).1.lock = .clean → Saved lib (run nodeId s ops).2 nodeId (run nodeId s ops).1.classes := by
  induction ops with
  | nil => intro s _ _ _ hi hl; exact hi (by rw [show s.1.lock = .clean from hl]; decide)
  | cons o ops ih =>
    intro s h ho he hi hl
    refine ih (s := step nodeId s o) (ok_nodeStep h (ho o (by simp)).1) (fun x hx => ho x (List.mem_cons_of_mem _ hx)) (fun p q hpq => ?_) ?_ hl
    · exact he (o :: p) q (by rw [hpq]; rfl)
    · exact keeps h (ho o (by simp)).1 (ho o (by simp)).2 (fun e => he [] ops (by rw [e]; rfl)) hi

/-- A new node without a file is as on disk. -/
theorem saved_fresh (lib : Yaml) (nodeId : Str) (ids : List Nat) : Saved lib [] nodeId (Nod.fresh ids).classes := by
  refine ⟨_, rfl, fun c st hc => ?_⟩
  have := hc
  rw [show (Nod.fresh ids).classes = ids.map fun c => (c, ClassState.fresh) from rfl] at this
  have hm := Dict.mem_of_get? this
  simp only [List.mem_map, Prod.mk.injEq] at hm
  obtain ⟨_, _, _, rfl⟩ := hm
  refine ⟨.fresh, by rw [get_blank, hc]; rfl, rfl, fun n => ?_⟩
  simp [ClassState.fresh, attrsLoaded]

/-- A version report and a configuration report in a lock, then a version report outside of it. -/
example (lib : Yaml) (m : Msg) (hm : Complete m) :
    Saved lib (run (lib := lib) "5:0".toList (Nod.fresh [0x70, 0x86], []) [.enter, .version 0x70 1, .config m, .leave, .version 0x86 2, .begin 0x86]).2 "5:0".toList
      (run (lib := lib) "5:0".toList (Nod.fresh [0x70, 0x86], []) [.enter, .version 0x70 1, .config m, .leave, .version 0x86 2, .begin 0x86]).1.classes := by
  obtain ⟨n, v, z, h1, h2, h3⟩ := hm
  refine C118_partial _ (ok_fresh (by decide)) ?_ ?_ (fun _ => saved_fresh lib _ _) ?_
  · intro o ho
    simp only [List.mem_cons, List.not_mem_nil, or_false] at ho
    rcases ho with rfl | rfl | rfl | rfl | rfl | rfl <;> refine ⟨trivial, ?_⟩ <;> simp [Silent, Complete, h1, h2, h3]
  · intro p q e
    cases p with
    | nil => exact fun h => by cases h
    | cons a p =>
      exfalso
      simp only [List.cons_append, List.cons.injEq] at e
      have : Op.enter ∈ p ++ Op.enter :: q := by simp
      rw [← e.2] at this
      simp at this
  · simp [run, step, nodeStep, change, onClass, configReport, h1, h2, h3, Nod.fresh, Dict.get?, Dict.set, lockOp, Node.storageStep, ClassState.put, recsOf, ClassState.fresh]

/-- Several changes; how often a command class says that it was updated. -/
def changes (n : Classes) : List Op → Classes × Nat
  | [] => (n, 0)
  | o :: os => ((changes (change n o).1 os).1, (changes (change n o).1 os).2 + if (change n o).2 then 1 else 0)

/-- The operations are those of the interviews: every step of `interview()` and `requestVersion()` (`Model/Interview.lean`) does to the command class what a few of the operations
`version`, `begin` and `ended` do, and says as often that it was updated. -/
theorem C118_interviews {n : Classes} {c : Nat} {st : ClassState} (hc : Dict.get? n c = some st) (s : Interview.State) (hv : st.version = s.version) (hi : st.interviewed = s.interviewed)
    (o : Interview.Op) (hl : ∀ v b, o ≠ .load v b) :
    ∃ ops : List Op, (∀ x ∈ ops, (∃ v, x = .version c v) ∨ x = .begin c ∨ ∃ d, x = .ended c d) ∧
      ∃ st', Dict.get? (changes n ops).1 c = some st' ∧ st'.version = (Interview.step s o).version ∧ st'.interviewed = (Interview.step s o).interviewed ∧ st'.attrs = st.attrs ∧
        (Interview.step s o).told = s.told + (changes n ops).2 := by
  have none : ∀ s' : Interview.State, s'.version = s.version → s'.interviewed = s.interviewed → s'.told = s.told →
      ∃ ops : List Op, (∀ x ∈ ops, (∃ v, x = .version c v) ∨ x = .begin c ∨ ∃ d, x = .ended c d) ∧
        ∃ st', Dict.get? (changes n ops).1 c = some st' ∧ st'.version = s'.version ∧ st'.interviewed = s'.interviewed ∧ st'.attrs = st.attrs ∧ s'.told = s.told + (changes n ops).2 :=
    fun s' h1 h2 h3 => ⟨[], by simp, st, hc, hv.trans (by rw [h1]), hi.trans h2.symm, rfl, h3⟩
  cases o with
  | interview =>
    simp only [Interview.step]
    split
    · split <;> exact none _ rfl rfl rfl
    · exact ⟨[.begin c], by simp, ⟨st.version, false, st.attrs⟩, by simp [changes, change, get_onClass, hc], hv, rfl, rfl, by simp [changes, change, onClass, hc]⟩
  | requestVersion =>
    simp only [Interview.step]
    split <;> exact none _ rfl rfl rfl
  | versionAnswer i r =>
    simp only [Interview.step]
    split
    · exact none _ rfl rfl rfl
    · split
      · split
        · exact none _ rfl rfl rfl
        · exact none _ rfl rfl rfl
        · rename_i v
          have one : ∀ s' : Interview.State, s'.version = v → s'.interviewed = s.interviewed → s'.told = s.told + 1 →
              ∃ ops : List Op, (∀ x ∈ ops, (∃ v, x = .version c v) ∨ x = .begin c ∨ ∃ d, x = .ended c d) ∧
                ∃ st', Dict.get? (changes n ops).1 c = some st' ∧ st'.version = s'.version ∧ st'.interviewed = s'.interviewed ∧ st'.attrs = st.attrs ∧ s'.told = s.told + (changes n ops).2 :=
            fun s' h1 h2 h3 => ⟨[.version c v], by simp, ⟨v, st.interviewed, st.attrs⟩, by simp [changes, change, get_onClass, hc], by rw [h1], hi.trans h2.symm, rfl,
              by simp [changes, change, onClass, hc, h3]⟩
          split
          · exact one _ rfl rfl rfl
          · split
            · exact one _ rfl rfl rfl
            · refine ⟨[.version c v, .begin c], by simp, ⟨v, false, st.attrs⟩, ?_, rfl, rfl, rfl, ?_⟩
              · simp [changes, change, get_onClass, hc]
              · simp [changes, change, onClass, hc]
      · exact none _ rfl rfl rfl
  | bodyEnds i r =>
    simp only [Interview.step]
    split
    · exact none _ rfl rfl rfl
    · split
      · split
        · exact none _ rfl rfl rfl
        · exact none _ rfl rfl rfl
        · rename_i v
          refine ⟨[.ended c (v ≠ .bool false)], fun x hx => .inr (.inr ⟨_, List.mem_singleton.1 hx⟩), ⟨st.version, if v ≠ .bool false then true else st.interviewed, st.attrs⟩, ?_, hv, ?_, rfl, ?_⟩
          · simp [changes, change, get_onClass, hc]
          · by_cases h : v = .bool false <;> simp [h, hi]
          · simp [changes, change, onClass, hc]
      · exact none _ rfl rfl rfl
  | load v b => exact absurd rfl (hl v b)

/-- A parameter as the model of Configuration has it; attributes that are not set read as 0. -/
def paramOf (r : Dict String Leaf) : Classes.Config.Param :=
  let num := fun n => match Dict.get? r n with
    | some (.num v) => v
    | _ => 0
  ⟨num "value", num "size"⟩

theorem recsOf_put (c : ClassState) (name : String) (d : Dict Int (Dict String Leaf)) : recsOf (ClassState.put c name d) name = d := by
  simp [recsOf, ClassState.put]

/-- Configuration reports are handled as in the model of Configuration (`Model/Classes.lean`). -/
theorem C118_config (c : ClassState) (d : Dict Int Classes.Config.Param) (m : Msg) (h : ∀ k, (Dict.get? (recsOf c "parameters") k).map paramOf = Dict.get? d k) :
    (∀ k, (Dict.get? (recsOf (configReport c m).1 "parameters") k).map paramOf = Dict.get? (Classes.Config.report d m).1 k) ∧
    ((configReport c m).2 = true ↔ ∃ r, (Classes.Config.report d m).2 = .ok r) := by
  have hp : ∀ k, paramOf ((Dict.get? (recsOf c "parameters") k).getD []) = (Dict.get? d k).getD ⟨0, 0⟩ := by
    intro k
    rw [← h k]
    cases Dict.get? (recsOf c "parameters") k <;> rfl
  have p1 : ∀ (r : Dict String Leaf) (v : Int), paramOf (Dict.set r "value" (.num v)) = { paramOf r with value := v } := by
    intro r v; simp [paramOf, Dict.get?_set]
  have p2 : ∀ (r : Dict String Leaf) (v : Int), paramOf (Dict.set r "size" (.num v)) = { paramOf r with size := v } := by
    intro r v; simp [paramOf, Dict.get?_set]
  unfold configReport Classes.Config.report
  cases Classes.needNum m "parameterNumber" with
  | error e => simp [h]
  | ok n =>
    cases Classes.needNum m "value" with
    | error e =>
      refine ⟨fun k => ?_, by simp⟩
      simp only [recsOf_put, Dict.get?_set]
      split
      · simp [hp]
      · exact h k
    | ok v =>
      cases Classes.needNum m "size" with
      | error e =>
        refine ⟨fun k => ?_, by simp⟩
        simp only [recsOf_put, Dict.get?_set]
        split
        · simp [hp, p1]
        · exact h k
      | ok z =>
        refine ⟨fun k => ?_, by simp⟩
        simp only [recsOf_put, Dict.get?_set]
        split
        · simp [hp, p1, p2]
        · exact h k

/-! ## C119: what was saved is loaded when the program is started again -/

/-- **C119**, in full: started with a file of a node, when the application announces the node, the node has the settings in the file. -/
def C119_statement (lib : Yaml) : Prop :=
  ∀ (own : Nat) (files : Files lib) (ops : List SysOp) (o : App.Op) (i : Nat) (nd : App.Nd) (saved : Classes), NodeOk saved →
    Dict.get? files (pathFor nd.id) = some (lib.dump (save saved)) →
    .added i nd ∈ told ((Sys.start lib own files).run ops).app (App.step ((Sys.start lib own files).run ops).app o) →
    ∀ c st, Dict.get? saved c = some st → c ∈ supported nd.info →
      ∃ id n st', Dict.get? (((Sys.start lib own files).run ops).step (.app o)).objs nd.obj = some (id, n) ∧ Dict.get? n.classes c = some st' ∧ Restored st st'

/-- **C119**, partially: so it is if nothing was saved for the node before it was announced. -/
theorem C119_partial {lib : Yaml} (own : Nat) (files : Files lib) (ops : List SysOp) (o : App.Op) {i : Nat} {nd : App.Nd} {saved : Classes} (hok : NodeOk saved)
    (hf : Dict.get? files (pathFor nd.id) = some (lib.dump (save saved)))
    (ht : .added i nd ∈ told ((Sys.start lib own files).run ops).app (App.step ((Sys.start lib own files).run ops).app o))
    (hs : nd.id ∉ ((Sys.start lib own files).run ops).saves) {c : Nat} {st : ClassState} (hc : Dict.get? saved c = some st) (hsup : c ∈ supported nd.info) :
    ∃ n st', Dict.get? (((Sys.start lib own files).run ops).step (.app o)).objs nd.obj = some (nd.id, n) ∧ Dict.get? n.classes c = some st' ∧ Restored st st' := by
  have hfile := (files_run files own ops nd.id hs).trans hf
  obtain ⟨hI, hV⟩ := inv_app (inv_run own files ops) o
  obtain ⟨_, n, hn, _⟩ := hV.evs _ (List.mem_of_mem_drop ht) nd (by simp [Lemmas.App.evNds])
  obtain ⟨_, m, hm, hk⟩ := hI.known.evs (.added i nd) (by rw [(step_app _ o).1]; exact List.mem_of_mem_drop ht) nd (by simp [Lemmas.App.evNds])
  generalize (Sys.start lib own files).run ops = s at *
  obtain ⟨y, h1, _, h3⟩ := hears_added (lib := lib) (told s.app (App.step s.app o))
    (fun y => Dict.keys y.2.classes = supported nd.info → ∃ st', Dict.get? y.2.classes c = some st' ∧ Restored st st')
    { s with app := App.step s.app o, objs := entered s o } ht (by
      rintro ⟨_, x⟩ rfl hkx
      simp only [keys_added] at hkx
      obtain ⟨r, g1, _, g3⟩ := load_file lib s.files nd.id hok hfile x.classes
      obtain ⟨c0, hc0⟩ := mem_keys_iff.1 (hkx ▸ hsup)
      have := g3 c c0 hc0
      rw [hc] at this
      obtain ⟨a, k1, k2⟩ := this
      refine ⟨⟨st.version, true, a⟩, by simp only [g1]; exact k1, rfl, fun n v hv => ?_⟩
      have := k2 n
      rw [hv] at this
      exact this) _ hn rfl
  have e : some y = some (nd.id, m) := h1.symm.trans hm
  cases e
  obtain ⟨st', k1, k2⟩ := h3 hk
  exact ⟨m, st', hm, k1, k2⟩

/-- A node with configuration and version. -/
def info7086 : App.Info := ⟨[0x70, 0x86], 4, 16, 1, true⟩

/-- Its settings. -/
def saved7086 : Classes := [(0x70, ⟨3, true, [("parameters", .recs [(1, [("size", .num 1), ("value", .num 5)])])]⟩), (0x86, ⟨2, true, []⟩)]

theorem ok7086 : NodeOk saved7086 := by
  refine ⟨by decide, ?_⟩
  intro id c hm
  simp only [saved7086, List.mem_cons, List.not_mem_nil, or_false, Prod.mk.injEq] at hm
  rcases hm with ⟨rfl, rfl⟩ | ⟨rfl, rfl⟩
  · refine ⟨by decide, ?_⟩
    intro n v hv
    simp only [List.mem_cons, List.not_mem_nil, or_false, Prod.mk.injEq] at hv
    obtain ⟨rfl, rfl⟩ := hv
    refine ⟨.recs [("value", .num), ("size", .num)], by simp [attrsOf], by simp [Dict.keys], ?_⟩
    intro k r hr
    simp only [List.mem_cons, List.not_mem_nil, or_false, Prod.mk.injEq] at hr
    obtain ⟨rfl, rfl⟩ := hr
    refine ⟨by decide, ?_⟩
    intro n v hv
    simp only [List.mem_cons, List.not_mem_nil, or_false, Prod.mk.injEq] at hv
    rcases hv with ⟨rfl, rfl⟩ | ⟨rfl, rfl⟩
    · exact ⟨.num, by simp, trivial⟩
    · exact ⟨.num, by simp, trivial⟩
  · exact ⟨by simp [Dict.keys], by simp⟩

/-- The application is started and loads node 5; then it announces it. -/
def loading : List App.Op := [.start .startup, .answer 0 (.list (.ok [1, 5])), .answer 0 (.info (.ok info7086))]
def announcing : List App.Op := [.answer 0 (.failed (.ok ()))]

def nd5 : App.Nd := ⟨0, 5, 0, info7086⟩

theorem supported7086 : supported info7086 = [0x70, 0x86] := by decide +kernel

theorem told5 : .added 0 nd5 ∈ told (App.run (App.fresh 1) (loading ++ announcing)) (App.step (App.run (App.fresh 1) (loading ++ announcing)) (.answer 0 (.asked (.ok ())))) := by
  simp only [told]
  decide +kernel

attribute [local irreducible] App.run App.step acts

/-- Nothing comes between: the node has its settings. -/
example (lib : Yaml) :
    ∃ n st', Dict.get? (((Sys.start lib 1 [(pathFor nd5.id, lib.dump (save saved7086))]).run ((loading ++ announcing).map .app)).step (.app (.answer 0 (.asked (.ok ()))))).objs 0 =
      some (nd5.id, n) ∧ Dict.get? n.classes 0x70 = some st' ∧ Restored ⟨3, true, [("parameters", .recs [(1, [("size", .num 1), ("value", .num 5)])])]⟩ st' := by
  refine C119_partial (i := 0) (nd := nd5) (saved := saved7086) 1 _ _ (.answer 0 (.asked (.ok ()))) ok7086 rfl ?_ ?_ rfl (by rw [show nd5.info = info7086 from rfl, supported7086]; decide)
  · rw [app_run]
    exact told5
  · rw [run_acts, acts_saves]
    exact List.not_mem_nil

theorem loaded5 (lib : Yaml) (files : Files lib) :
    (Sys.start lib 1 files).run (loading.map .app) = ⟨App.run (App.fresh 1) loading, [(0, nd5.id, Nod.fresh [0x70, 0x86])], files, []⟩ := by
  rw [run_acts, show acts (Sys.start lib 1 files).app loading = [.made nd5] from (by decide +kernel : acts (App.fresh 1) loading = [.made nd5])]
  simp only [List.foldl_cons, List.foldl_nil, Act.run, show nd5.info = info7086 from rfl, supported7086]
  rfl

/-- A version report of the node is handled between loading and announcing. -/
def early : List SysOp := loading.map .app ++ .node 0 (.version 0x86 1) :: announcing.map .app

theorem run_append {lib : Yaml} (s : Sys lib) (p q : List SysOp) : s.run (p ++ q) = (s.run p).run q := by simp [Sys.run]

theorem run_cons {lib : Yaml} (s : Sys lib) (o : SysOp) (q : List SysOp) : s.run (o :: q) = (s.step o).run q := rfl

theorem run_one {lib : Yaml} (s : Sys lib) (o : SysOp) : s.run [o] = s.step o := rfl

theorem node_step {lib : Yaml} (a : App.State) (id : Str) (n : Nod) (files : Files lib) (o : Op) (ht : (nodeStep n o).2 = true) :
    Sys.step ⟨a, [(0, id, n)], files, []⟩ (.node 0 o) = ⟨a, [(0, id, (nodeStep n o).1)], nodeUpdated lib files id (nodeStep n o).1.classes, [id]⟩ := by
  simp only [Sys.step, Dict.get?, Dict.set, if_true, ht, List.nil_append]

/-- Storing what is known of the nodes does not change what the application does. -/
theorem C119_application {lib : Yaml} (own : Nat) (files : Files lib) (ops : List SysOp) :
    ((Sys.start lib own files).run ops).app = App.run (App.fresh own) (appOps ops) := app_run _ _

/-- **C119** is violated: the report makes the storage write the node, which has not got its settings yet, over the file. -/
theorem C119_violated (lib : Yaml) : ¬ C119_statement lib := by
  intro h
  obtain ⟨id, n, st', h1, h2, h3⟩ := h 1 [(pathFor nd5.id, lib.dump (save saved7086))] early (.answer 0 (.asked (.ok ()))) 0 nd5 saved7086 ok7086 rfl
    (by rw [app_run]; exact told5) 0x70 _ rfl (by rw [show nd5.info = info7086 from rfl, supported7086]; decide)
  have hok : NodeOk (nodeStep (Nod.fresh [0x70, 0x86]) (.version 0x86 1)).1.classes := ok_nodeStep (ok_fresh (by decide)) trivial
  obtain ⟨r, g1, _, g3⟩ := load_file lib (nodeUpdated lib [(pathFor nd5.id, lib.dump (save saved7086))] nd5.id (nodeStep (Nod.fresh [0x70, 0x86]) (.version 0x86 1)).1.classes) nd5.id hok
    (by rw [nodeUpdated, Dict.get?_set, if_pos rfl]) (nodeStep (Nod.fresh [0x70, 0x86]) (.version 0x86 1)).1.classes
  obtain ⟨a, k1, _⟩ := g3 0x70 .fresh rfl
  have e : ((Sys.start lib 1 [(pathFor nd5.id, lib.dump (save saved7086))]).run early).step (.app (.answer 0 (.asked (.ok ())))) =
      (Sys.run (Sys.step (Sys.run (Sys.start lib 1 [(pathFor nd5.id, lib.dump (save saved7086))]) (loading.map .app)) (.node 0 (.version 0x86 1)))
        ((announcing ++ [App.Op.answer 0 (.asked (.ok ()))]).map .app)) := by
    rw [early, run_append, run_cons, List.map_append, run_append, List.map_singleton, run_one]
  rw [e, loaded5, node_step _ _ _ _ _ rfl, run_acts, (by decide +kernel : acts (App.run (App.fresh 1) loading) (announcing ++ [.answer 0 (.asked (.ok ()))]) = [.heard nd5])] at h1
  simp only [List.foldl_cons, List.foldl_nil, Act.run, hear, show nd5.obj = 0 from rfl, Dict.get?, if_true, g1, Dict.set] at h1
  cases h1
  rw [k1] at h2
  cases h2
  exact absurd (show (0 : Int) = 3 from h3.1) (by decide)

/-! ## C120: a new node does not get the settings of a removed one -/

/-- **C120**, in full: a node that is loaded after a node with its id has been removed, and about which nothing has been learned yet, has no settings. -/
def C120_statement (lib : Yaml) : Prop :=
  ∀ (own : Nat) (p q : List SysOp) (i j : Nat) (nd : App.Nd), .removed j nd.id ∈ ((Sys.start lib own []).run p).app.trace → ((Sys.start lib own []).run p).app.objs ≤ nd.obj →
    (∀ o ∈ q, ∃ a, o = .app a) → .added i nd ∈ ((Sys.start lib own []).run (p ++ q)).app.trace →
    ∃ n, Dict.get? ((Sys.start lib own []).run (p ++ q)).objs nd.obj = some (nd.id, n) ∧ ∀ c st, Dict.get? n.classes c = some st → st = .fresh

/-- Node 5 tells its version, and is removed. -/
def living : List App.Op := loading ++ announcing ++ [.answer 0 (.asked (.ok ())), .answer 0 (.asked (.ok ()))]
def leaving : List App.Op := [.start .update, .answer 1 (.list (.ok [1])), .answer 1 (.asked (.ok ())), .answer 1 (.asked (.ok ()))]

/-- Another node gets the number 5. -/
def coming : List App.Op := [.start .update, .answer 2 (.list (.ok [1, 5])), .answer 2 (.info (.ok info7086)), .answer 2 (.asked (.ok ()))]

def nd5' : App.Nd := ⟨1, 5, 0, info7086⟩

/-- **C120** is violated: files are not removed, and the new node gets what is in the file of the old one. -/
theorem C120_violated (lib : Yaml) : ¬ C120_statement lib := by
  intro h
  have ea : appOps (living.map .app ++ .node 0 (.version 0x86 2) :: leaving.map .app) = living ++ leaving := rfl
  have eb : appOps ((living.map .app ++ .node 0 (.version 0x86 2) :: leaving.map .app) ++ coming.map .app) = living ++ leaving ++ coming := rfl
  obtain ⟨n, h1, h2⟩ := h 1 (living.map .app ++ .node 0 (.version 0x86 2) :: leaving.map .app) (coming.map .app) 2 1 nd5'
    (by rw [app_run, ea]; exact (by decide +kernel : .removed 1 nd5'.id ∈ (App.run (App.fresh 1) (living ++ leaving)).trace))
    (by rw [app_run, ea]; exact (by decide +kernel : (App.run (App.fresh 1) (living ++ leaving)).objs ≤ nd5'.obj))
    (by intro o ho; obtain ⟨a, _, rfl⟩ := List.mem_map.1 ho; exact ⟨a, rfl⟩)
    (by rw [app_run, eb]; exact (by decide +kernel : .added 2 nd5' ∈ (App.run (App.fresh 1) (living ++ leaving ++ coming)).trace))
  have hok : NodeOk (nodeStep (Nod.fresh [0x70, 0x86]) (.version 0x86 2)).1.classes := ok_nodeStep (ok_fresh (by decide)) trivial
  obtain ⟨r, g1, _, g3⟩ := load_file lib (nodeUpdated lib [] nd5.id (nodeStep (Nod.fresh [0x70, 0x86]) (.version 0x86 2)).1.classes) nd5.id hok
    (by rw [nodeUpdated, Dict.get?_set, if_pos rfl]) (Nod.fresh [0x70, 0x86]).classes
  obtain ⟨a, k1, _⟩ := g3 0x86 .fresh rfl
  have e1 : (Sys.start lib 1 []).run (living.map .app) = ⟨App.run (App.fresh 1) living, [(0, nd5.id, Nod.fresh [0x70, 0x86])], [], []⟩ := by
    rw [run_acts, show acts (Sys.start lib 1 []).app living = [.made nd5, .heard nd5] from (by decide +kernel : acts (App.fresh 1) living = [.made nd5, .heard nd5])]
    simp only [List.foldl_cons, List.foldl_nil, Act.run, show nd5.info = info7086 from rfl, supported7086]
    rfl
  rw [List.append_assoc, run_append, List.cons_append, ← List.map_append, e1] at h1
  rw [run_cons, node_step _ _ _ _ _ rfl, run_acts, (by decide +kernel : acts (App.run (App.fresh 1) living) (leaving ++ coming) = [.made nd5', .heard nd5'])] at h1
  simp only [List.foldl_cons, List.foldl_nil, Act.run, hear, show nd5'.obj = 1 from rfl, show nd5'.info = info7086 from rfl, show nd5'.id = nd5.id from rfl, supported7086,
    Dict.set, Dict.get?, if_true, g1, show ¬ (0 = 1) by decide, if_false] at h1
  cases h1
  exact absurd (show (2 : Int) = 0 from congrArg ClassState.version (h2 0x86 _ k1)) (by decide)

/-- **C120**, partially: nothing is loaded for a node if no node with its id was ever saved. -/
theorem C120_partial {lib : Yaml} (own : Nat) (files : Files lib) (ops : List SysOp) {obj : Nat} {id : Str} {n : Nod}
    (hx : Dict.get? ((Sys.start lib own files).run ops).objs obj = some (id, n)) (hf : Dict.get? files (pathFor id) = none) (hs : id ∉ ((Sys.start lib own files).run ops).saves)
    (hn : ∀ o, .node obj o ∉ ops) {c : Nat} {st : ClassState} (hc : Dict.get? n.classes c = some st) : st = .fresh :=
  fresh_run own files ops obj (id, n) hx hs hf hn c st hc

/-- Node 5 tells its version before it is announced, and a node 6 is added. -/
example (lib : Yaml) :
    let ops := loading.map .app ++ .node 0 (.version 0x86 2) :: [App.Op.answer 0 (.failed (.ok ())), .start .update, .answer 1 (.list (.ok [5, 6])), .answer 1 (.info (.ok info7086)),
      .answer 1 (.asked (.ok ()))].map .app
    ∃ n, Dict.get? ((Sys.start lib 1 []).run ops).objs 1 = some (App.key 6 0, n) ∧ ∀ c st, Dict.get? n.classes c = some st → st = .fresh := by
  intro ops
  have hm : (App.key 6 0, (⟨1, 6, 0, info7086⟩ : App.Nd)) ∈ (App.run (App.fresh 1) (loading ++ [App.Op.answer 0 (.failed (.ok ())), .start .update, .answer 1 (.list (.ok [5, 6])),
    .answer 1 (.info (.ok info7086)), .answer 1 (.asked (.ok ()))])).nodes := by decide +kernel
  obtain ⟨_, n, hn, _⟩ := (inv_run (lib := lib) 1 [] ops).known.table _ (by rw [app_run]; exact hm)
  refine ⟨n, hn, fun c st hc => C120_partial (lib := lib) 1 [] ops hn rfl ?_ (by simp [ops, loading]) hc⟩
  simp only [ops]
  rw [run_append, loaded5, run_cons, node_step _ _ _ _ _ rfl, run_acts, acts_saves]
  show App.key 6 0 ∉ [App.key 5 0]
  decide

end Props.Persist

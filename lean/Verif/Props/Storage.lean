import Verif.Lemmas.Storage
/-!
# Property theorems C64 to C67 and C96: saving and loading nodes

All theorems hold for every YAML library that obeys the laws of `Model.Storage.Yaml`; `plain` shows that there are such libraries.
-/
namespace Props.Storage
open Model Model.Storage Spec.Storage

/-- A YAML library: the text is the tree. -/
def plain : Yaml where
  Text := Option Y
  empty := none
  dump y := some y
  load t := match t with
    | none => .ok none
    | some y => .ok (some (strings y))
  load_dump _ h := ⟨_, rfl, Same.refl h⟩
  load_empty := rfl

/-! ## Example -/

/-- A node with configuration parameters, sensor types, associations, group information and a version. -/
def node : Classes :=
  [(0x86, ⟨2, true, [("zwaveLibraryType", .leaf (.num 3)), ("applicationVersion", .leaf (.num 255))]⟩),
   (0x70, ⟨1, true, [("parameters", .recs [(7, [("value", .num (-1)), ("size", .num 2)]), (3, [("size", .num 1)])])]⟩),
   (0x31, ⟨5, false, [("supportedTypes", .nums [(1, 3), (5, 1)])]⟩),
   (0x85, ⟨2, true, [("groupings", .recs [(1, [("maxNodes", .num 5), ("nodes", .nodes [(1, none), (6, some 2)])]), (2, [("maxNodes", .num 0)])])]⟩),
   (0x59, ⟨3, true, [("groupings", .recs [(1, [("profile", .num 1), ("name", .text "Lifeline".toList), ("commands", .list [[.num 0x20, .num 1]])])])]⟩),
   (0x25, ⟨1, true, []⟩)]

def fresh : Classes := [(0x59, .fresh), (0x31, .fresh), (0x70, .fresh), (0x85, .fresh), (0x86, .fresh), (0x99, .fresh)]

theorem node_ok : NodeOk node := by
  refine ⟨by decide, ?_⟩
  intro id c h
  simp only [node, List.mem_cons, List.not_mem_nil, or_false, Prod.mk.injEq] at h
  rcases h with ⟨rfl, rfl⟩ | ⟨rfl, rfl⟩ | ⟨rfl, rfl⟩ | ⟨rfl, rfl⟩ | ⟨rfl, rfl⟩ | ⟨rfl, rfl⟩
  all_goals
    refine ⟨by decide, ?_⟩
    intro n v h
    simp only [List.mem_cons, List.not_mem_nil, or_false, Prod.mk.injEq] at h
  · rcases h with ⟨rfl, rfl⟩ | ⟨rfl, rfl⟩
    · exact ⟨.leaf .num, List.mem_of_getElem? (i := 0) rfl, trivial⟩
    · exact ⟨.leaf .num, List.mem_of_getElem? (i := 3) rfl, trivial⟩
  · obtain ⟨rfl, rfl⟩ := h
    refine ⟨_, List.mem_of_getElem? (i := 0) rfl, by decide, ?_⟩
    intro k r h
    simp only [List.mem_cons, List.not_mem_nil, or_false, Prod.mk.injEq] at h
    rcases h with ⟨rfl, rfl⟩ | ⟨rfl, rfl⟩
    · refine ⟨by decide, ?_⟩
      intro n v h
      simp only [List.mem_cons, List.not_mem_nil, or_false, Prod.mk.injEq] at h
      rcases h with ⟨rfl, rfl⟩ | ⟨rfl, rfl⟩
      · exact ⟨.num, List.mem_of_getElem? (i := 0) rfl, trivial⟩
      · exact ⟨.num, List.mem_of_getElem? (i := 1) rfl, trivial⟩
    · refine ⟨by decide, ?_⟩
      intro n v h
      simp only [List.mem_cons, List.not_mem_nil, or_false, Prod.mk.injEq] at h
      obtain ⟨rfl, rfl⟩ := h
      exact ⟨.num, List.mem_of_getElem? (i := 1) rfl, trivial⟩
  · obtain ⟨rfl, rfl⟩ := h
    exact ⟨_, List.mem_of_getElem? (i := 0) rfl, by show (Dict.keys [((1 : Int), (3 : Int)), (5, 1)]).Nodup; decide⟩
  · obtain ⟨rfl, rfl⟩ := h
    refine ⟨_, List.mem_of_getElem? (i := 0) rfl, by decide, ?_⟩
    intro k r h
    simp only [List.mem_cons, List.not_mem_nil, or_false, Prod.mk.injEq] at h
    rcases h with ⟨rfl, rfl⟩ | ⟨rfl, rfl⟩
    · refine ⟨by decide, ?_⟩
      intro n v h
      simp only [List.mem_cons, List.not_mem_nil, or_false, Prod.mk.injEq] at h
      rcases h with ⟨rfl, rfl⟩ | ⟨rfl, rfl⟩
      · exact ⟨.num, List.mem_of_getElem? (i := 0) rfl, trivial⟩
      · exact ⟨.nodes, List.mem_of_getElem? (i := 1) rfl, trivial⟩
    · refine ⟨by decide, ?_⟩
      intro n v h
      simp only [List.mem_cons, List.not_mem_nil, or_false, Prod.mk.injEq] at h
      obtain ⟨rfl, rfl⟩ := h
      exact ⟨.num, List.mem_of_getElem? (i := 0) rfl, trivial⟩
  · obtain ⟨rfl, rfl⟩ := h
    refine ⟨_, List.mem_of_getElem? (i := 0) rfl, by decide, ?_⟩
    intro k r h
    simp only [List.mem_cons, List.not_mem_nil, or_false, Prod.mk.injEq] at h
    obtain ⟨rfl, rfl⟩ := h
    refine ⟨by decide, ?_⟩
    intro n v h
    simp only [List.mem_cons, List.not_mem_nil, or_false, Prod.mk.injEq] at h
    rcases h with ⟨rfl, rfl⟩ | ⟨rfl, rfl⟩ | ⟨rfl, rfl⟩
    · exact ⟨.num, List.mem_of_getElem? (i := 1) rfl, trivial⟩
    · exact ⟨.text, List.mem_of_getElem? (i := 0) rfl, trivial⟩
    · exact ⟨.list, List.mem_of_getElem? (i := 2) rfl, trivial⟩

theorem fresh_ok : Fresh fresh := by
  intro id c h
  simp only [fresh, List.mem_cons, List.not_mem_nil, or_false, Prod.mk.injEq] at h
  rcases h with ⟨_, rfl⟩ | ⟨_, rfl⟩ | ⟨_, rfl⟩ | ⟨_, rfl⟩ | ⟨_, rfl⟩ | ⟨_, rfl⟩ <;> rfl

/-- The example, loaded: all attributes are back, the sensor is marked interviewed although it was not, and the commands are texts. -/
example : nodeAdded plain (nodeUpdated plain [] "5:0".toList node) "5:0".toList fresh =
    ([(0x59, ⟨3, true, [("groupings", .recs [(1, [("name", .text "Lifeline".toList), ("profile", .num 1), ("commands", .list [[.str "32".toList, .str "1".toList]])])])]⟩),
      (0x31, ⟨5, true, [("supportedTypes", .nums [(1, 3), (5, 1)])]⟩),
      (0x70, ⟨1, true, [("parameters", .recs [(7, [("value", .num (-1)), ("size", .num 2)]), (3, [("size", .num 1)])])]⟩),
      (0x85, ⟨2, true, [("groupings", .recs [(1, [("maxNodes", .num 5), ("nodes", .nodes [(1, none), (6, some 2)])]), (2, [("maxNodes", .num 0)])])]⟩),
      (0x86, ⟨2, true, [("zwaveLibraryType", .leaf (.num 3)), ("applicationVersion", .leaf (.num 255))]⟩), (0x99, .fresh)], .ok ()) := by rfl

/-! ## C64 -/

/-- **C64.** Saving a node and loading it into a fresh node (with any selection of command classes, in any order) succeeds, and every command class other than association
group information that was saved has its version and all its attributes again, with the same values; attributes that were not set stay unset. -/
theorem C64_restored (lib : Yaml) (fs : Files lib) (nodeId : Str) (node fresh : Classes) (h : NodeOk node) (hf : Fresh fresh) :
    ∃ r, nodeAdded lib (nodeUpdated lib fs nodeId node) nodeId fresh = (r, .ok ()) ∧ Dict.keys r = Dict.keys fresh ∧
      ∀ id c, id ≠ 0x59 → Dict.get? node id = some c → id ∈ Dict.keys fresh →
        ∃ c', Dict.get? r id = some c' ∧ c'.version = c.version ∧ SameAttrs c'.attrs c.attrs := by
  obtain ⟨r, h1, h2, h3⟩ := load_saved lib fs nodeId h hf
  refine ⟨r, h1, h2, fun id c hid hc hin => ?_⟩
  obtain ⟨c0, hc0⟩ := Option.isSome_iff_exists.1 ((Dict.get?_isSome_iff _ _).2 hin)
  have := h3 id c0 hc0
  rw [hc] at this
  obtain ⟨a, g1, g2⟩ := this
  refine ⟨_, g1, rfl, ?_⟩
  rw [attrsLoaded_eq (noLists_attrsOf hid) (h.2 id c (Dict.mem_of_get? hc))] at g2
  exact g2

/-- **C64.** A command class that was not supported when the node was saved is left as it was. -/
theorem C64_others (lib : Yaml) (fs : Files lib) (nodeId : Str) (node fresh : Classes) (h : NodeOk node) (hf : Fresh fresh) (id : Nat) (c : ClassState)
    (hid : Dict.get? node id = none) (hc : Dict.get? fresh id = some c) : Dict.get? (nodeAdded lib (nodeUpdated lib fs nodeId node) nodeId fresh).1 id = some c := by
  obtain ⟨r, h1, _, h3⟩ := load_saved lib fs nodeId h hf
  have := h3 id c hc
  rw [hid] at this
  rw [h1]; exact this

/-- **C64.** A node that was never saved is left as it is. -/
theorem C64_never_saved (lib : Yaml) (fs : Files lib) (nodeId : Str) (fresh : Classes) (h : pathFor nodeId ∉ Dict.keys fs) : nodeAdded lib fs nodeId fresh = (fresh, .ok ()) := by
  simp only [nodeAdded, (Dict.get?_eq_none_iff fs _).2 h]

example := C64_restored plain [] "5:0".toList node fresh node_ok fresh_ok

/-! ## C65 -/

/-- **C65**, in full: after save and load a command class is marked interviewed exactly if it was. -/
def C65_statement (lib : Yaml) : Prop :=
  ∀ (fs : Files lib) (nodeId : Str) (node fresh : Classes), NodeOk node → Fresh fresh → ∀ id c c', Dict.get? node id = some c →
    Dict.get? (nodeAdded lib (nodeUpdated lib fs nodeId node) nodeId fresh).1 id = some c' → (id ∈ Dict.keys fresh) → c'.interviewed = c.interviewed

/-- What holds instead: whatever was saved, a command class that was saved is marked interviewed after loading. -/
theorem C65_always (lib : Yaml) (fs : Files lib) (nodeId : Str) (node fresh : Classes) (h : NodeOk node) (hf : Fresh fresh) (id : Nat) (c : ClassState)
    (hc : Dict.get? node id = some c) (hin : id ∈ Dict.keys fresh) :
    ∃ c', Dict.get? (nodeAdded lib (nodeUpdated lib fs nodeId node) nodeId fresh).1 id = some c' ∧ c'.interviewed = true := by
  obtain ⟨r, h1, _, h3⟩ := load_saved lib fs nodeId h hf
  obtain ⟨c0, hc0⟩ := Option.isSome_iff_exists.1 ((Dict.get?_isSome_iff _ _).2 hin)
  have := h3 id c0 hc0
  rw [hc] at this
  obtain ⟨a, g1, _⟩ := this
  rw [h1]
  exact ⟨_, g1, rfl⟩

/-- **C65** is violated, with every YAML library: the base loader gives the text `false`, which is true. -/
theorem C65_violated (lib : Yaml) : ¬ C65_statement lib := by
  intro h
  obtain ⟨c', h1, h2⟩ := C65_always lib [] [] node fresh node_ok fresh_ok 0x31 _ rfl (by decide)
  have := h [] [] node fresh node_ok fresh_ok 0x31 _ c' rfl h1 (by decide)
  rw [h2] at this
  cases this

/-- **C65**, partially: the mark survives. Missing: its absence does not. -/
theorem C65_partial (lib : Yaml) (fs : Files lib) (nodeId : Str) (node fresh : Classes) (h : NodeOk node) (hf : Fresh fresh) (id : Nat) (c : ClassState)
    (hc : Dict.get? node id = some c) (hin : id ∈ Dict.keys fresh) (hi : c.interviewed = true) :
    ∃ c', Dict.get? (nodeAdded lib (nodeUpdated lib fs nodeId node) nodeId fresh).1 id = some c' ∧ c'.interviewed = c.interviewed := by
  obtain ⟨c', h1, h2⟩ := C65_always lib fs nodeId node fresh h hf id c hc hin
  exact ⟨c', h1, by rw [h2, hi]⟩

example := C65_partial plain [] "5:0".toList node fresh node_ok fresh_ok 0x86 _ rfl (by decide) rfl

/-! ## C66 -/

/-- **C66**, in full: after save and load association group information has the same values. -/
def C66_statement (lib : Yaml) : Prop :=
  ∀ (fs : Files lib) (nodeId : Str) (node fresh : Classes), NodeOk node → Fresh fresh → ∀ c c', Dict.get? node 0x59 = some c → 0x59 ∈ Dict.keys fresh →
    Dict.get? (nodeAdded lib (nodeUpdated lib fs nodeId node) nodeId fresh).1 0x59 = some c' → SameAttrs c'.attrs c.attrs

/-- **C66**, partially: it has the same groups with the same names and profiles. Missing: the command lists, whose numbers become texts. -/
theorem C66_partial (lib : Yaml) (fs : Files lib) (nodeId : Str) (node fresh : Classes) (h : NodeOk node) (hf : Fresh fresh) (c : ClassState)
    (hc : Dict.get? node 0x59 = some c) (hin : 0x59 ∈ Dict.keys fresh) (groups : Dict Int (Dict String Leaf)) (hg : Dict.get? c.attrs "groupings" = some (.recs groups)) :
    ∃ c' groups', Dict.get? (nodeAdded lib (nodeUpdated lib fs nodeId node) nodeId fresh).1 0x59 = some c' ∧ c'.version = c.version ∧
      Dict.get? c'.attrs "groupings" = some (.recs groups') ∧ ∀ k, match Dict.get? groups k with
        | none => Dict.get? groups' k = none
        | some g => ∃ g', Dict.get? groups' k = some g' ∧ Dict.get? g' "name" = Dict.get? g "name" ∧ Dict.get? g' "profile" = Dict.get? g "profile" ∧
            ∀ l, Dict.get? g "commands" = some (.list l) → Dict.get? g' "commands" = some (.list (l.map fun cmd => cmd.map textual)) := by
  obtain ⟨r, h1, _, h3⟩ := load_saved lib fs nodeId h hf
  obtain ⟨c0, hc0⟩ := Option.isSome_iff_exists.1 ((Dict.get?_isSome_iff _ _).2 hin)
  have := h3 _ c0 hc0
  rw [hc] at this
  obtain ⟨a, g1, g2⟩ := this
  have e1 : Dict.get? (attrsLoaded c.attrs) "groupings" = some (attrLoaded (.recs groups)) := by
    have := get?_map (fun n : String => n) attrLoaded (fun _ _ e => e) c.attrs "groupings"
    rw [hg] at this; exact this
  have g3 := g2 "groupings"
  rw [e1] at g3
  rw [h1]
  cases ha : Dict.get? a "groupings" with
  | none => rw [ha] at g3; exact g3.elim
  | some v =>
    rw [ha] at g3
    cases v with
    | leaf v => exact g3.elim
    | nums d => exact g3.elim
    | recs groups' =>
      refine ⟨_, groups', g1, rfl, ha, fun k => ?_⟩
      have g4 := g3 k
      have e2 : Dict.get? (groups.map fun p => (p.1, recLoaded p.2)) k = (Dict.get? groups k).map recLoaded := get?_map (fun n : Int => n) recLoaded (fun _ _ e => e) groups k
      rw [e2] at g4
      cases hk : Dict.get? groups k with
      | none =>
        rw [hk] at g4
        cases hk' : Dict.get? groups' k with
        | none => rfl
        | some _ => rw [hk'] at g4; exact g4.elim
      | some g =>
        rw [hk] at g4
        cases hk' : Dict.get? groups' k with
        | none => rw [hk'] at g4; exact g4.elim
        | some g' =>
          rw [hk'] at g4
          have g5 : SameRec g' (recLoaded g) := g4
          have e3 : ∀ n, Dict.get? g' n = (Dict.get? g n).map leafLoaded := fun n => (g5 n).trans (get?_map (fun n : String => n) leafLoaded (fun _ _ e => e) g n)
          obtain ⟨_, hd2⟩ := agi_groups (h.2 _ c (Dict.mem_of_get? hc)) hg
          have hrec := hd2 k g (Dict.mem_of_get? hk)
          refine ⟨g', rfl, ?_, ?_, fun l hl => by rw [e3, hl]; rfl⟩
          · rw [e3]
            cases hn : Dict.get? g "name" with
            | none => rfl
            | some v => rw [Option.map_some, agi_name hrec hn]
          · rw [e3]
            cases hn : Dict.get? g "profile" with
            | none => rfl
            | some v => rw [Option.map_some, agi_profile hrec hn]

/-- **C66** is violated, with every YAML library: the command `[32, 1]` is loaded as `["32", "1"]`. -/
theorem C66_violated (lib : Yaml) : ¬ C66_statement lib := by
  intro h
  obtain ⟨c', groups', h1, _, h2, h3⟩ := C66_partial lib [] [] node fresh node_ok fresh_ok _ rfl (by decide) _ rfl
  have h4 := h [] [] node fresh node_ok fresh_ok _ c' rfl (by decide) h1 "groupings"
  rw [h2] at h4
  obtain ⟨g', g1, _, _, g2⟩ := h3 1
  have h5 := h4 1
  rw [g1] at h5
  have h6 := h5 "commands"
  rw [g2 _ rfl] at h6
  revert h6
  decide

/-! ## C67 -/

/-- **C67**, in full: wherever the process stops while a node is saved, loading it afterwards gives what loading gave before or what it gives after the save. -/
def C67_statement (lib : Yaml) : Prop :=
  ∀ (fs : Files lib) (nodeId : Str) (node fresh : Classes) (written : List lib.Text), NodeOk node → Fresh fresh → ∀ s ∈ crashes lib fs nodeId node written,
    nodeAdded lib s nodeId fresh = nodeAdded lib fs nodeId fresh ∨ nodeAdded lib s nodeId fresh = nodeAdded lib (nodeUpdated lib fs nodeId node) nodeId fresh

/-- When the process stops after the file was opened, loading raises and nothing is loaded, whatever was saved before. -/
theorem C67_lost (lib : Yaml) (fs : Files lib) (nodeId : Str) (node fresh : Classes) (written : List lib.Text) :
    ∃ s ∈ crashes lib fs nodeId node written, nodeAdded lib s nodeId fresh = (fresh, .error .attribute) := by
  refine ⟨Dict.set fs (pathFor nodeId) lib.empty, by simp [crashes], ?_⟩
  simp only [nodeAdded, Dict.get?_set_self, lib.load_empty]

/-- **C67** is violated, with every YAML library. -/
theorem C67_violated (lib : Yaml) : ¬ C67_statement lib := by
  intro h
  obtain ⟨s, hs, e⟩ := C67_lost lib (nodeUpdated lib [] [] node) [] node fresh []
  have := h (nodeUpdated lib [] [] node) [] node fresh [] node_ok fresh_ok s hs
  obtain ⟨r1, h1, _⟩ := C64_restored lib [] [] node fresh node_ok fresh_ok
  obtain ⟨r2, h2, _⟩ := C64_restored lib (nodeUpdated lib [] [] node) [] node fresh node_ok fresh_ok
  rw [e, h1, h2] at this
  rcases this with e | e <;> cases e

/-- **C67**, partially: it holds if the process stops before the file is opened or after everything has been written; at every crash point the settings of all other nodes
are as before; and at every crash point a later save repairs the file. Missing: the points between, where the settings of the node are lost. -/
theorem C67_partial (lib : Yaml) (fs : Files lib) (nodeId : Str) (node : Classes) (written : List lib.Text) (s : Files lib) (hs : s ∈ crashes lib fs nodeId node written) :
    (s = fs ∨ (∃ t ∈ lib.empty :: written, s = Dict.set fs (pathFor nodeId) t) ∨ s = nodeUpdated lib fs nodeId node) ∧
    (∀ other fresh, other ≠ nodeId → nodeAdded lib s other fresh = nodeAdded lib fs other fresh) ∧
    (∀ later fresh, nodeAdded lib (nodeUpdated lib s nodeId later) nodeId fresh = nodeAdded lib (nodeUpdated lib fs nodeId later) nodeId fresh) := by
  have hs' : s = fs ∨ ∃ t, s = Dict.set fs (pathFor nodeId) t := by
    simp only [crashes, List.mem_cons, List.mem_append, List.mem_map, List.not_mem_nil, or_false, List.cons_append] at hs
    rcases hs with rfl | rfl | ⟨t, _, rfl⟩ | rfl
    · exact .inl rfl
    · exact .inr ⟨_, rfl⟩
    · exact .inr ⟨_, rfl⟩
    · exact .inr ⟨_, rfl⟩
  refine ⟨?_, fun other fresh ho => ?_, fun later fresh => ?_⟩
  · simp only [crashes, List.mem_cons, List.mem_append, List.mem_map, List.not_mem_nil, or_false, List.cons_append] at hs
    rcases hs with rfl | rfl | ⟨t, ht, rfl⟩ | rfl
    · exact .inl rfl
    · exact .inr (.inl ⟨_, by simp, rfl⟩)
    · exact .inr (.inl ⟨t, by simp [ht], rfl⟩)
    · exact .inr (.inr rfl)
  · rcases hs' with rfl | ⟨t, rfl⟩
    · rfl
    · simp only [nodeAdded, Dict.get?_set_ne _ _ (pathFor_ne ho.symm)]
  · simp only [nodeAdded, nodeUpdated, Dict.get?_set_self]

example := C67_partial plain (nodeUpdated plain [] "5:0".toList node) "5:0".toList node [] _ (List.mem_cons_self ..)

/-! ## C96 -/

/-- The files after a sequence of saves. -/
def saves (lib : Yaml) (fs : Files lib) (l : List (Str × Classes)) : Files lib := l.foldl (fun fs p => nodeUpdated lib fs p.1 p.2) fs

/-- **C96.** Whatever nodes are saved, how often and in which order: what is loaded for a node is what was last saved for it, and what was there before if it was not saved. -/
theorem C96_last (lib : Yaml) (fs : Files lib) (l : List (Str × Classes)) (nodeId : Str) (fresh : Classes) :
    nodeAdded lib (saves lib fs l) nodeId fresh =
      match (l.filter fun p => p.1 = nodeId).getLast? with
      | none => nodeAdded lib fs nodeId fresh
      | some p => nodeAdded lib (nodeUpdated lib fs nodeId p.2) nodeId fresh := by
  have key : ∀ fs : Files lib, Dict.get? (saves lib fs l) (pathFor nodeId) = match (l.filter fun p => p.1 = nodeId).getLast? with
      | none => Dict.get? fs (pathFor nodeId)
      | some p => some (lib.dump (save p.2)) := by
    induction l with
    | nil => intro fs; rfl
    | cons p l ih =>
      intro fs
      obtain ⟨n, c⟩ := p
      rw [show saves lib fs ((n, c) :: l) = saves lib (nodeUpdated lib fs n c) l from rfl, ih]
      by_cases hn : n = nodeId
      · subst hn
        simp only [List.filter_cons, decide_true, if_true, List.getLast?_cons]
        cases (l.filter fun p => p.1 = n).getLast? with
        | none => simp [nodeUpdated]
        | some q => rfl
      · simp only [List.filter_cons, hn, decide_false, Bool.false_eq_true, if_false]
        cases (l.filter fun p => p.1 = nodeId).getLast? with
        | none => simp only [nodeUpdated, Dict.get?_set_ne _ _ (pathFor_ne hn)]
        | some q => rfl
  unfold nodeAdded
  rw [key fs]
  cases (l.filter fun p => p.1 = nodeId).getLast? with
  | none => rfl
  | some p => simp only [nodeUpdated, Dict.get?_set_self]

example : ([("5:0".toList, node), ("6:0".toList, []), ("5:0".toList, [(0x86, .fresh)]), ("6:1".toList, node)].filter fun p : Str × Classes => p.1 = "5:0".toList).getLast? =
  some ("5:0".toList, [(0x86, .fresh)]) := by decide

end Props.Storage

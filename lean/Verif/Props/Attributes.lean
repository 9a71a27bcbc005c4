import Verif.Spec.Attributes
/-!
# Property theorems C138 and C139: attributes of node objects
-/
namespace Props.Attributes
open Model Model.Attributes Spec.Attributes

theorem passedOn_iff (a : Name) : passedOn a = true ↔ a ∈ ofDevice := by cases a <;> simp [passedOn, ofDevice]

theorem lastWrite_snoc (ws : List (Nat × Name × Int)) (o o' : Nat) (a a' : Name) (v : Int) :
    lastWrite (ws ++ [(o', a', v)]) o a = if o' = o ∧ a' = a then v else lastWrite ws o a := by
  unfold lastWrite
  rw [List.reverse_append]
  simp only [List.reverse_cons, List.reverse_nil, List.nil_append, List.cons_append, List.find?_cons]
  by_cases h : o' = o ∧ a' = a
  · simp [h]
  · have : (o' == o && a' == a) = false := by
      rw [Bool.and_eq_false_iff]
      rcases Classical.not_and_iff_not_or_not.1 h with h | h
      · exact .inl (by simpa using h)
      · exact .inr (by simpa using h)
    rw [this, if_neg h]

/-- The heap holds what was written. -/
structure Holds (h : Heap) (p : Past) : Prop where
  objects : h.map (fun x => (x.root, x.parent)) = p.objects
  fields : ∀ (o : Nat) (x : Obj) (a : Name), h[o]? = some x → x.fields a = lastWrite p.writes o a
  unborn : ∀ w ∈ p.writes, w.1 < h.length
  parents : ∀ (o : Nat) (x : Obj) (q : Nat), h[o]? = some x → x.parent = some q → q < o ∧ ∃ y : Obj, h[q]? = some y ∧ y.parent = none

theorem Holds.length {h : Heap} {p : Past} (H : Holds h p) : h.length = p.objects.length := by rw [← H.objects, List.length_map]

theorem Holds.at {h : Heap} {p : Past} (H : Holds h p) (o : Nat) : p.objects[o]? = h[o]?.map fun x => (x.root, x.parent) := by rw [← H.objects, List.getElem?_map]

theorem lastWrite_unborn {ws : List (Nat × Name × Int)} {n : Nat} (h : ∀ w ∈ ws, w.1 < n) (a : Name) : lastWrite ws n a = 0 := by
  unfold lastWrite
  rw [List.find?_eq_none.2]
  intro w hw
  have := h w (List.mem_reverse.1 hw)
  simp only [Bool.and_eq_true, beq_iff_eq, not_and]
  omega

/-- A new object. -/
theorem Holds.new {h : Heap} {p : Past} (H : Holds h p) (root : Nat) (par : Option Nat) (hp : ∀ q, par = some q → ∃ y : Obj, h[q]? = some y ∧ y.parent = none) :
    Holds (h ++ [Obj.fresh root par]) ⟨p.objects ++ [(root, par)], p.writes⟩ := by
  refine ⟨by rw [List.map_append, H.objects]; rfl, fun o x a ho => ?_, fun w hw => by rw [List.length_append]; exact Nat.lt_add_right _ (H.unborn w hw), fun o x q ho hq => ?_⟩
  · rcases Nat.lt_or_ge o h.length with hl | hl
    · rw [List.getElem?_append_left hl] at ho
      exact H.fields o x a ho
    · rw [List.getElem?_append_right hl] at ho
      obtain ⟨e, rfl⟩ := List.getElem?_singleton.symm ▸ ho |> fun (h : (if o - h.length = 0 then some (Obj.fresh root par) else none) = some x) => by
        split at h
        · rename_i e; exact (⟨e, Option.some.inj h⟩ : o - _ = 0 ∧ Obj.fresh root par = x)
        · cases h
      have : o = h.length := by omega
      subst this
      rw [lastWrite_unborn H.unborn]
      rfl
  · rcases Nat.lt_or_ge o h.length with hl | hl
    · rw [List.getElem?_append_left hl] at ho
      obtain ⟨h1, y, h2, h3⟩ := H.parents o x q ho hq
      exact ⟨h1, y, by rw [List.getElem?_append_left (by omega)]; exact h2, h3⟩
    · rw [List.getElem?_append_right hl, List.getElem?_singleton] at ho
      split at ho
      · cases ho
        obtain ⟨y, h2, h3⟩ := hp q hq
        have hl' : q < h.length := (List.getElem?_eq_some_iff.1 h2).1
        exact ⟨by omega, y, by rw [List.getElem?_append_left hl']; exact h2, h3⟩
      · cases ho

/-- A property is set. -/
theorem Holds.set {h : Heap} {p : Past} (H : Holds h p) (o : Nat) (a : Name) (v : Int) : Holds (Model.Attributes.set h o a v).1 (p.after (.set o a v)) := by
  unfold Model.Attributes.set Past.after
  have hl := H.length
  have hat := H.at o
  cases ho : h[o]? with
  | none =>
    have : ¬ o < p.objects.length := by rw [← hl]; exact Nat.not_lt.2 (List.getElem?_eq_none_iff.1 ho)
    simp only [this, false_and, if_false]
    exact H
  | some x =>
    rw [ho] at hat
    have hlt : o < h.length := (List.getElem?_eq_some_iff.1 ho).1
    have he : (p.endPoint o = true ∧ a ∈ ofDevice) ↔ (x.parent.isSome = true ∧ passedOn a = true) := by
      rw [passedOn_iff]
      simp [Past.endPoint, hat]
    dsimp only
    by_cases hc : x.parent.isSome = true ∧ passedOn a = true
    · rw [if_pos hc, if_neg (fun h => h.2 (he.2 hc))]
      exact H
    · rw [if_neg hc, if_pos ⟨by omega, fun h => hc (he.1 h)⟩]
      refine ⟨?_, fun o' x' a' ho' => ?_, fun w hw => ?_, fun o' x' q ho' hq => ?_⟩
      · rw [← H.objects, List.map_set]
        apply List.ext_getElem?
        intro i
        rw [List.getElem?_set, List.length_map]
        split
        · rename_i e; subst e
          rw [List.getElem?_map, ho]; rfl
        · rfl
      · rw [List.getElem?_set] at ho'
        rw [lastWrite_snoc]
        split at ho'
        · rename_i e; subst e
          cases ho'
          simp only [Obj.put]
          by_cases ha : a' = a
          · subst ha; simp
          · rw [if_neg ha, if_neg (fun h => ha h.2.symm)]; exact H.fields o x a' ho
        · rename_i e
          rw [if_neg (fun h => e h.1)]
          exact H.fields o' x' a' ho'
      · rw [List.length_set]
        rcases List.mem_append.1 hw with hw | hw
        · exact H.unborn w hw
        · cases List.mem_singleton.1 hw; exact hlt
      · have key : ∃ z, h[o']? = some z ∧ z.parent = some q := by
          rw [List.getElem?_set] at ho'
          split at ho'
          · rename_i e; subst e
            cases ho'
            exact ⟨x, ho, hq⟩
          · exact ⟨x', ho', hq⟩
        obtain ⟨z, hz, hzq⟩ := key
        obtain ⟨h1, y, h2, h3⟩ := H.parents o' z q hz hzq
        refine ⟨h1, ?_⟩
        rw [List.getElem?_set]
        split
        · rename_i e; subst e
          rw [ho] at h2; cases h2
          exact ⟨_, rfl, h3⟩
        · exact ⟨y, h2, h3⟩

/-- Properties of a new object that have setters are set. -/
theorem Holds.setAll {p : Past} {o : Nat} (ho : o < p.objects.length) : ∀ (l : List (Name × Int)) {h : Heap} {ws : List (Nat × Name × Int)},
    (∀ x ∈ l, ¬ (p.endPoint o = true ∧ x.1 ∈ ofDevice)) → Holds h ⟨p.objects, ws⟩ → Holds (Model.Attributes.setAll h o l) ⟨p.objects, ws ++ l.map fun x => (o, x.1, x.2)⟩
  | [], h, ws, _, H => by simpa [Model.Attributes.setAll] using H
  | (a, v) :: l, h, ws, hl, H => by
    have h1 := H.set o a v
    have e : Past.after ⟨p.objects, ws⟩ (.set o a v) = ⟨p.objects, ws ++ [(o, a, v)]⟩ := by
      simp only [Past.after]
      rw [if_pos ⟨ho, hl (a, v) (List.mem_cons_self ..)⟩]
    rw [e] at h1
    have h2 := Holds.setAll ho l (fun x hx => hl x (List.mem_cons_of_mem _ hx)) h1
    simpa [Model.Attributes.setAll, List.append_assoc] using h2

theorem Holds.step {h : Heap} {p : Past} (H : Holds h p) (o : Op) (ho : ∀ q ep g s, o = .loadEndPoint q ep g s → p.endPoint q = false) : Holds (Model.Attributes.step h o) (p.after o) := by
  cases o with
  | failedList l => exact H
  | set o a v => exact H.set o a v
  | loadNode root i =>
    have h1 := H.new root none (fun q h => by cases h)
    have := Holds.setAll (p := ⟨p.objects ++ [(root, none)], p.writes⟩) (o := h.length) (by rw [List.length_append, H.length]; exact Nat.lt_succ_self _)
      [(.basic, i.basic), (.generic, i.generic), (.listening, if i.listening then 1 else 0), (.specific, i.specific)]
      (fun x _ hx => by
        rw [H.length] at hx
        simp [Past.endPoint] at hx) h1
    simp only [Model.Attributes.step, Past.after]
    rw [H.length] at this ⊢
    exact this
  | loadEndPoint q ep g s =>
    have hat := H.at q
    simp only [Model.Attributes.step, Past.after]
    cases hq : h[q]? with
    | none => rw [hq] at hat; rw [hat]; exact H
    | some x =>
      rw [hq] at hat
      have hpar : x.parent = none := by
        have := ho q ep g s rfl
        simpa [Past.endPoint, hat] using this
      rw [hat]
      dsimp only [Option.map_some]
      have h1 := H.new x.root (some q) (fun q' h => by cases h; exact ⟨x, hq, hpar⟩)
      have := Holds.setAll (p := ⟨p.objects ++ [(x.root, some q)], p.writes⟩) (o := h.length) (by rw [List.length_append, H.length]; exact Nat.lt_succ_self _)
        [(.endpoint, (ep : Int)), (.generic, g), (.specific, s)]
        (fun x hx hx' => by
          have := hx'.2
          simp [ofDevice] at hx this
          rcases hx with rfl | rfl | rfl <;> simp at this) h1
      rw [H.length] at this ⊢
      exact this

theorem holds : ∀ (ops : List Op) {h : Heap} {p : Past}, Holds h p → Legal p ops → Holds (run h ops) (ops.foldl Past.after p)
  | [], _, _, H, _ => H
  | o :: rest, _, _, H, hl => holds rest (H.step o hl.1) hl.2

theorem holds_past {ops : List Op} (hl : Legal ⟨[], []⟩ ops) : Holds (run [] ops) (past ops) :=
  holds ops ⟨rfl, fun o x a h => (by simp at h), fun w hw => (by cases hw), fun o x q h => (by simp at h)⟩ hl

theorem get_value {h : Heap} {p : Past} (H : Holds h p) {o : Nat} (ho : p.has o) (a : Name) : get h o a = .ok (p.value o a) := by
  have hlen : o < h.length := by rw [H.length]; exact ho
  have hat := H.at o
  obtain ⟨x, hx⟩ : ∃ x, h[o]? = some x := ⟨_, List.getElem?_eq_getElem hlen⟩
  rw [hx] at hat
  have hv : ∀ k, p.owner o a = k → p.value o a = lastWrite p.writes k a := fun k hk => by rw [Past.value, hk]
  unfold Attributes.get
  obtain ⟨n, hn⟩ : ∃ n, h.length = n + 1 := ⟨h.length - 1, by omega⟩
  rw [hn, getN, hx]
  dsimp only
  cases hp : x.parent with
  | none =>
    dsimp only
    rw [hv o (by simp [Past.owner, hat, hp]), H.fields o x a hx]
  | some q =>
    dsimp only
    by_cases ha : passedOn a = true
    · rw [if_pos ha]
      obtain ⟨h1, y, h2, h3⟩ := H.parents o x q hx hp
      obtain ⟨m, rfl⟩ : ∃ m, n = m + 1 := ⟨n - 1, by omega⟩
      rw [getN, h2]
      dsimp only
      rw [h3]
      dsimp only
      rw [hv q (by simp [Past.owner, hat, hp, (passedOn_iff a).1 ha]), H.fields q y a h2]
    · rw [if_neg ha, hv o (by rw [Past.owner, if_neg (fun h => ha ((passedOn_iff a).2 h))]), H.fields o x a hx]

/-- **C138** After every history of loading nodes and end points and setting attributes, reading an attribute gives the value that was last written to it — for an end point and
the attributes of the device, to that of its node — and 0 or False if none was. -/
theorem C138_read (ops : List Op) (hl : Legal ⟨[], []⟩ ops) (o : Nat) (ho : (past ops).has o) (a : Name) : get (run [] ops) o a = .ok ((past ops).value o a) :=
  get_value (holds_past hl) ho a

/-- **C138** Setting an attribute of the device on an end point raises AttributeError and changes nothing; every other attribute of every object can be set. -/
theorem C138_set (ops : List Op) (hl : Legal ⟨[], []⟩ ops) (o : Nat) (ho : (past ops).has o) (a : Name) (v : Int) :
    if (past ops).endPoint o ∧ a ∈ ofDevice then Model.Attributes.set (run [] ops) o a v = (run [] ops, .error .attribute)
    else (Model.Attributes.set (run [] ops) o a v).2 = .ok () := by
  have H := holds_past hl
  have hlen : o < (run [] ops).length := by rw [H.length]; exact ho
  obtain ⟨x, hx⟩ : ∃ x, (run [] ops)[o]? = some x := ⟨_, List.getElem?_eq_getElem hlen⟩
  have hat := H.at o
  rw [hx] at hat
  have he : ((past ops).endPoint o = true ∧ a ∈ ofDevice) ↔ (x.parent.isSome = true ∧ passedOn a = true) := by
    rw [passedOn_iff]
    simp [Past.endPoint, hat]
  unfold Model.Attributes.set
  rw [hx]
  dsimp only
  by_cases hc : x.parent.isSome = true ∧ passedOn a = true
  · rw [if_pos (he.2 hc), if_pos hc]
  · rw [if_neg (fun h => hc (he.1 h)), if_neg hc]

/-- **C138** An end point has the device's attributes of its node at any time. -/
theorem C138_shared (ops : List Op) (hl : Legal ⟨[], []⟩ ops) (o q : Nat) (root : Nat) (ho : (past ops).objects[o]? = some (root, some q)) (a : Name) (ha : a ∈ ofDevice) :
    get (run [] ops) o a = get (run [] ops) q a := by
  have H := holds_past hl
  have hat := H.at o
  rw [ho] at hat
  have hlt : (past ops).has o := (List.getElem?_eq_some_iff.1 ho).1
  cases hx : (run [] ops)[o]? with
  | none => rw [hx] at hat; cases hat
  | some x =>
    rw [hx] at hat
    have hp : x.parent = some q := congrArg Prod.snd (Option.some.inj hat).symm
    obtain ⟨h1, y, h2, h3⟩ := H.parents o x q hx hp
    have hq : (past ops).has q := Nat.lt_trans h1 hlt
    have hqat := H.at q
    rw [h2, Option.map_some, h3] at hqat
    rw [get_value H hlt, get_value H hq]
    have e1 : (past ops).owner o a = q := by simp [Past.owner, ho, ha]
    have e2 : (past ops).owner q a = q := by simp [Past.owner, hqat]
    rw [Past.value, Past.value, e1, e2]

/-! ## Failing nodes -/

/-- The full property: a node that the controller listed as failing is marked so. -/
def C139_statement : Prop := ∀ (ops : List Op), Legal ⟨[], []⟩ ops → Untouched .failed ops → ∀ (o root : Nat) (par : Option Nat), (past ops).objects[o]? = some (root, par) → root ∈ failing ops →
  get (run [] ops) o .failed = .ok 1

theorem writes_untouched {a : Name} (ha : a ∉ [Name.basic, .generic, .listening, .specific, .endpoint]) : ∀ (ops : List Op) (p : Past), (∀ w ∈ p.writes, w.2.1 ≠ a) → Untouched a ops →
    ∀ w ∈ (ops.foldl Past.after p).writes, w.2.1 ≠ a
  | [], _, h, _ => h
  | o :: rest, p, h, hu => by
    refine writes_untouched ha rest (p.after o) (fun w hw => ?_) (fun o' v hm => hu o' v (List.mem_cons_of_mem _ hm))
    simp only [List.mem_cons, List.not_mem_nil, or_false, not_or] at ha
    obtain ⟨a1, a2, a3, a4, a5⟩ := ha
    cases o with
    | failedList l => exact h w hw
    | set o' b v =>
      simp only [Past.after] at hw
      split at hw
      · rcases List.mem_append.1 hw with hw | hw
        · exact h w hw
        · cases List.mem_singleton.1 hw
          rintro rfl
          exact hu o' v (List.mem_cons_self ..)
      · exact h w hw
    | loadNode root i =>
      simp only [Past.after] at hw
      rcases List.mem_append.1 hw with hw | hw
      · exact h w hw
      · simp only [List.mem_cons, List.not_mem_nil, or_false] at hw
        rcases hw with rfl | rfl | rfl | rfl <;> first | exact Ne.symm a1 | exact Ne.symm a2 | exact Ne.symm a3 | exact Ne.symm a4
    | loadEndPoint q ep g s =>
      simp only [Past.after] at hw
      split at hw
      · exact h w hw
      · rcases List.mem_append.1 hw with hw | hw
        · exact h w hw
        · simp only [List.mem_cons, List.not_mem_nil, or_false] at hw
          rcases hw with rfl | rfl | rfl <;> first | exact Ne.symm a5 | exact Ne.symm a2 | exact Ne.symm a4

/-- **C139**, what holds: the library never sets whether a node is failing or a FLiRS node. Every object says False unless the user has set it. -/
theorem C139_never_partial (ops : List Op) (hl : Legal ⟨[], []⟩ ops) (a : Name) (ha : a = .failed ∨ a = .flirs) (hu : Untouched a ops) (o : Nat) (ho : (past ops).has o) :
    get (run [] ops) o a = .ok 0 := by
  rw [C138_read ops hl o ho a]
  have h := writes_untouched (a := a) (by rcases ha with rfl | rfl <;> decide) ops ⟨[], []⟩ (fun w hw => by cases hw) hu
  have : (past ops).value o a = 0 := by
    unfold Past.value lastWrite
    rw [List.find?_eq_none.2]
    intro w hw
    have := h w (List.mem_reverse.1 hw)
    simp only [Bool.and_eq_true, beq_iff_eq, not_and]
    exact fun _ => this
  rw [this]

/-- A node is loaded, and then listed as failing (application.py:170-174). -/
def listedAsFailing : List Op := [.loadNode 7 ⟨4, 16, 1, true⟩, .failedList [7]]

/-- **C139** does not hold. -/
theorem C139_violated : ¬ C139_statement := by
  intro h
  have := h listedAsFailing (by simp [Legal, listedAsFailing]) (by simp [Untouched, listedAsFailing]) 0 7 none rfl (by decide)
  rw [C139_never_partial listedAsFailing (by simp [Legal, listedAsFailing]) .failed (.inl rfl) (by simp [Untouched, listedAsFailing]) 0 (by unfold Past.has; decide)] at this
  exact absurd this (by decide)

/-- A node with an end point; the user changes attributes of both. -/
def example138 : List Op := [.loadNode 5 ⟨4, 16, 1, true⟩, .loadEndPoint 0 1 17 2, .set 1 .basic 9, .set 0 .basic 3, .set 1 .generic 8, .set 0 .failed 1]

example : Legal ⟨[], []⟩ example138 := by
  simp [Legal, example138, Past.after, Past.endPoint]
  rintro q - - - rfl - - - a b h
  simp at h
  exact h.2.symm
example : ([Name.basic, .flirs, .generic, .failed, .listening, .specific, .endpoint].map fun a => (get (run [] example138) 0 a, get (run [] example138) 1 a)) =
    [(.ok 3, .ok 3), (.ok 0, .ok 0), (.ok 16, .ok 8), (.ok 1, .ok 1), (.ok 1, .ok 1), (.ok 1, .ok 2), (.ok 0, .ok 1)] := by decide
example : (Model.Attributes.set (run [] example138) 1 .listening 0).2 = .error .attribute := rfl

end Props.Attributes

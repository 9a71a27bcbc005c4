import Verif.Props.ClassNet
import Verif.Props.Storage
import Verif.Spec.Restarts
/-!
# C163, C164: what is known of a class after restarts came from the node, but it may be marked as interviewed when it was not
-/
namespace Props.Restarts
open Model Model.ClassNet Model.Storage Spec.ClassNet Spec.Storage Spec.Restarts
open Model.ClassRun (Cls Says)
open Model.Body (Query)

variable {σ : Type}

/-- A run that ends earlier. -/
def until_ (h : Life σ) (p : List (Op σ)) : Life σ := { h with ops := p }

theorem until_said {h : Life σ} {p : List (Op σ)} (hp : p <+: h.ops) {m : Msg} (hm : (until_ h p).Said m) : h.Said m := by
  obtain ⟨x, hw, before, o, after, e, hf⟩ := hm
  obtain ⟨z, hz⟩ := hp
  refine ⟨x, hw, before, o, after ++ z, ?_, hf⟩
  rw [Life.all, ← hz, ← List.append_assoc, show h.pre.map Op.sys ++ p = (until_ h p).all from rfl, e]
  simp

theorem until_acknowledged {h : Life σ} {p : List (Op σ)} (hp : p <+: h.ops) {cmd : Msg} (hm : (until_ h p).Acknowledged cmd) : h.Acknowledged cmd := by
  obtain ⟨before, k, b, after, e, hf⟩ := hm
  obtain ⟨z, hz⟩ := hp
  refine ⟨before, k, b, after ++ z, ?_, hf⟩
  rw [Life.all, ← hz, ← List.append_assoc, show h.pre.map Op.sys ++ p = (until_ h p).all from rfl, e]
  simp

/-- What the file says is what was saved. -/
theorem file_same (lib : Yaml) {fs : Files lib} {nodeId : Str} {node fresh : Classes} (hn : NodeOk node) (hf : Fresh fresh) {id : Nat} (hid : id ∈ Dict.keys fresh) {c c' : ClassState}
    (hc : Dict.get? node id = some c) (hc' : Dict.get? (nodeAdded lib (nodeUpdated lib fs nodeId node) nodeId fresh).1 id = some c') :
    c'.version = c.version ∧ SameAttrs c'.attrs (attrsLoaded c.attrs) := by
  obtain ⟨r, h1, -, h3⟩ := load_saved lib fs nodeId hn hf
  obtain ⟨c0, hc0⟩ := Option.isSome_iff_exists.1 ((Dict.get?_isSome_iff _ _).2 hid)
  have := h3 id c0 hc0
  rw [hc] at this
  obtain ⟨a, g1, g2⟩ := this
  rw [h1] at hc'
  rw [hc'] at g1
  cases g1
  exact ⟨rfl, g2⟩

theorem loaded_get (d : Dict String Attr) (n : String) : Dict.get? (attrsLoaded d) n = (Dict.get? d n).map attrLoaded := get?_map (fun n : String => n) attrLoaded (fun _ _ e => e) d n

/-- The general argument: what is true of the class as long as nothing was loaded, and of what is loaded from files if it was true before, is always true. -/
theorem always {R : ClassRun.State σ → Nat → Bool → (σ → σ) → Prop} {root ep id : Nat} {c : Cls σ} {a : σ} (T : List (Life σ) → ClassRun.State σ → Prop)
    (mono : ∀ h l s, T l s → T (h :: l) s)
    (now : ∀ h l p, p <+: h.ops → h.nd.root = root → h.nd.ep = ep → h.id = id → h.c = c → h.attrs = a → (∀ f, .others f ∉ p) →
      (∀ v b f, .load v b f ∈ p → ∃ s, R s v b f ∧ T (h :: l) s) → T (h :: l) (at_ h p))
    {l : List (Life σ)} (hl : Runs R root ep id c a l) : ∀ h ∈ l, ∀ s, Was h s → T l s := by
  induction hl with
  | nil => simp
  | cons h l hr h1 h2 h3 h4 h5 h6 h7 ih =>
    have own : ∀ n p, p.length = n → p <+: h.ops → T (h :: l) (at_ h p) := by
      intro n
      induction n using Nat.strongRecOn with
      | ind n IH =>
        intro p hn hp
        refine now h l p hp h1 h2 h3 h4 h5 (fun f hf => h6 f (hp.subset hf)) fun v b f hm => ?_
        obtain ⟨x, y, e⟩ := List.append_of_mem hm
        obtain ⟨z, hz⟩ := hp
        obtain ⟨s, hs, hw⟩ := h7 x v b f (y ++ z) (by rw [← hz, e]; simp)
        refine ⟨s, hs, ?_⟩
        rcases hw with ⟨h', hh, hw⟩ | ⟨p', hp', rfl⟩
        · exact mono h l s (ih h' hh s hw)
        · have hx : x <+: h.ops := ⟨.load v b f :: y ++ z, by rw [← hz, e]; simp⟩
          refine IH p'.length ?_ p' rfl (hp'.trans hx)
          have := hp'.length_le
          rw [e] at hn
          simp only [List.length_append, List.length_cons] at hn
          omega
    intro h' hh s hw
    rcases List.mem_cons.mp hh with rfl | hh
    · obtain ⟨p, hp, rfl⟩ := hw
      exact own _ p rfl hp
    · exact mono h l s (ih h' hh s hw)

/-- In one of the runs the node has reported the version `v`, after it was asked for the version of the class. -/
def Reported (l : List (Life σ)) (id v : Nat) : Prop :=
  ∃ h ∈ l, ∃ m cmd, h.Said m ∧ m.hid = 0x8614 ∧ Version.taken (.ok m) = .ok v ∧ Version.question id = .ok cmd ∧ h.Acknowledged cmd

theorem dec_id (h : Life σ) : h.now.cls.dec.id = h.id := by
  have key : ∀ cs, (ClassRun.run h.c (ClassRun.fresh h.id h.attrs) cs).bodies.length = (ClassRun.run h.c (ClassRun.fresh h.id h.attrs) cs).dec.calls.length ∧
      (ClassRun.run h.c (ClassRun.fresh h.id h.attrs) cs).dec.id = h.id := by
    intro cs
    induction cs using Conn.snoc_ind with
    | nil => exact ⟨rfl, rfl⟩
    | snoc cs o ih =>
      rw [show ClassRun.run h.c (ClassRun.fresh h.id h.attrs) (cs ++ [o]) = ClassRun.step h.c (ClassRun.run h.c (ClassRun.fresh h.id h.attrs) cs) o by simp [ClassRun.run, List.foldl_append]]
      have e := Props.ClassNet.step_effect h.c _ ih.1 o
      exact ⟨by rw [e.bodies, e.calls, ih.1], by rw [e.id, ih.2]⟩
  obtain ⟨os, cs, w⟩ := Props.ClassNet.whole h
  have := w.cls
  unfold Life.now
  rw [this]
  exact (key cs).2

/-- **C163**, the version. However often the program is started again: the version of a class is not known, or was in a version report from the node and end point of the class, in this run or
an earlier one, after a question for the version of the class. -/
theorem C163_version {lib : Yaml} {F : Form σ} {root ep id : Nat} {c : Cls σ} {a : σ} {l : List (Life σ)} (hl : Runs (FromFile lib F id) root ep id c a l) (h : Life σ) (hh : h ∈ l) (s : ClassRun.State σ)
    (hs : Was h s) : s.dec.version = 0 ∨ Reported l id s.dec.version := by
  refine always (fun l s => s.dec.version = 0 ∨ Reported l id s.dec.version) (fun h l s => Or.imp_right fun ⟨h', e, w⟩ => ⟨h', List.mem_cons_of_mem _ e, w⟩) ?_ hl h hh s hs
  intro h l p hp _ _ hid _ _ _ hload
  rcases Props.ClassNet.C152_version (until_ h p) with e | ⟨b, f, e⟩ | ⟨m, cmd, e1, e2, e3, e4, e5⟩
  · exact .inl e
  · obtain ⟨s, ⟨fs, nodeId, node, fresh, c, c', g1, g2, g3, g4, g5, -, -, g7, g8, -, -⟩, ht⟩ := hload _ b f e
    obtain ⟨k1, -⟩ := file_same lib g1 g2 g3 g4 g7
    have : s.dec.version = (until_ h p).now.cls.dec.version := by
      have : (s.dec.version : Int) = ((until_ h p).now.cls.dec.version : Nat) := by rw [← g5, ← k1, g8]
      exact Int.ofNat.inj this
    rw [this] at ht
    exact ht
  · refine .inr ⟨h, by simp, m, cmd, until_said hp e1, e2, e3, ?_, until_acknowledged hp e5⟩
    rw [dec_id] at e4
    rw [← hid]
    exact e4

/-- **C163**, Version, ManufacturerSpecific and ZwavePlusInfo. However often the program is started again: each value was in a report from the node and end point of the class, in this run
or an earlier one. -/
theorem C163_values {lib : Yaml} {root ep id : Nat} {c : Cls (Dict String Int)} {l : List (Life (Dict String Int))} (q : Query) (names : List String) (hc : (c, q, names) ∈ ClassRun.copied)
    (hl : Runs (FromFile lib numbers id) root ep id c [] l) (h : Life (Dict String Int)) (hh : h ∈ l) (s : ClassRun.State (Dict String Int)) (hs : Was h s) (n : String) (x : Int)
    (hn : s.attrs.get? n = some x) : ∃ h' ∈ l, ∃ m, h'.Said m ∧ m.hid = q.awaits.hid ∧ Says m n x := by
  refine always (fun l s => ∀ n x, s.attrs.get? n = some x → ∃ h' ∈ l, ∃ m, h'.Said m ∧ m.hid = q.awaits.hid ∧ Says m n x)
    (fun h l s hs n x hn => by obtain ⟨h', e, w⟩ := hs n x hn; exact ⟨h', List.mem_cons_of_mem _ e, w⟩) ?_ hl h hh s hs n x hn
  intro h l p hp _ _ _ hcc ha hoth hload n x hn
  subst hcc
  refine Props.ClassNet.values_keep (until_ h p) q names hc (fun n x => ∃ h' ∈ h :: l, ∃ m, h'.Said m ∧ m.hid = q.awaits.hid ∧ Says m n x) ?_ (fun f hf => absurd hf (hoth f)) ?_
    (fun m h1 h2 n x h3 => ⟨h, by simp, m, until_said hp h1, h2, h3⟩) n x hn
  · intro v b f hm d hd n x hx
    obtain ⟨s, ⟨fs, nodeId, node, fresh, c, c', g1, g2, g3, g4, -, -, g6, g7, -, -, g9⟩, ht⟩ := hload v b f hm
    obtain ⟨-, k2⟩ := file_same lib g1 g2 g3 g4 g7
    rcases g9 d n x hx with e | e
    · exact hd n x e
    · refine ht n x (g6 n x ?_)
      have := k2 n
      rw [e, loaded_get] at this
      cases hw : Dict.get? c.attrs n with
      | none => rw [hw] at this; exact this.elim
      | some w =>
        rw [hw] at this
        cases w with
        | leaf w =>
          have this : Leaf.num x = leafLoaded w := this
          cases w <;> cases this
          rfl
        | _ => exact this.elim
  · intro n x e
    rw [show (until_ h p).attrs = h.attrs from rfl, ha] at e
    cases e

/-- **C163**, SensorMultilevel. The same for the scales of sensors. -/
theorem C163_scales {lib : Yaml} {root ep id : Nat} {a : Classes.Sensor.State} (ha0 : a.types = []) {l : List (Life Classes.Sensor.State)}
    (hl : Runs (FromFile lib types id) root ep id ClassRun.sensor a l) (h : Life Classes.Sensor.State) (hh : h ∈ l) (s : ClassRun.State Classes.Sensor.State) (hs : Was h s) (t mask : Int)
    (hn : s.attrs.types.get? t = some mask) : ∃ h' ∈ l, ∃ m, h'.Said m ∧ m.hid = 0x3106 ∧ Says m "scaleBitMask" mask := by
  refine always (fun l s => ∀ t mask, s.attrs.types.get? t = some mask → ∃ h' ∈ l, ∃ m, h'.Said m ∧ m.hid = 0x3106 ∧ Says m "scaleBitMask" mask)
    (fun h l s hs t x hn => by obtain ⟨h', e, w⟩ := hs t x hn; exact ⟨h', List.mem_cons_of_mem _ e, w⟩) ?_ hl h hh s hs t mask hn
  intro h l p hp _ _ _ hcc ha hoth hload t mask hn
  refine Props.ClassNet.scales_keep (until_ h p) hcc (fun t mask => ∃ h' ∈ h :: l, ∃ m, h'.Said m ∧ m.hid = 0x3106 ∧ Says m "scaleBitMask" mask) ?_ (fun f hf => absurd hf (hoth f)) ?_
    (fun m h1 h2 mask h3 _ => ⟨h, by simp, m, until_said hp h1, h2, h3⟩) t mask hn
  · intro v b f hm d hd t mask hx
    obtain ⟨s, ⟨fs, nodeId, node, fresh, c, c', g1, g2, g3, g4, -, -, g6, g7, -, -, g9⟩, ht⟩ := hload v b f hm
    obtain ⟨-, k2⟩ := file_same lib g1 g2 g3 g4 g7
    rcases g9 d t mask hx with e | ⟨m, e, e'⟩
    · exact hd t mask e
    · have := k2 "supportedTypes"
      rw [e, loaded_get] at this
      cases hw : Dict.get? c.attrs "supportedTypes" with
      | none => rw [hw] at this; exact this.elim
      | some w =>
        rw [hw] at this
        cases w with
        | nums m' => exact ht t mask (g6 m' hw t mask (by rw [← (this : ∀ k, Dict.get? m k = Dict.get? m' k) t]; exact e'))
        | _ => exact this.elim
  · intro t mask e
    rw [show (until_ h p).attrs = h.attrs from rfl, ha, ha0] at e
    cases e

/-! ## Example -/

/-- Manufacturer Specific as it is saved after the interview of `Props.ClassNet.manufacturerLife`. -/
def savedClass : ClassState := ⟨2, true, [("manufacturerID", .leaf (.num 1)), ("productTypeID", .leaf (.num 2)), ("productID", .leaf (.num 3))]⟩

def loadedValues : Dict String Int := [("manufacturerID", 1), ("productTypeID", 2), ("productID", 3)]

/-- The program is started again and loads the file. -/
def second : Life (Dict String Int) := { Props.ClassNet.manufacturerLife 2 with ops := [.load 2 true fun _ => loadedValues] }

theorem second_marked (lib : Yaml) : Runs (fun s v b f => FromFile lib numbers 0x72 s v b f ∧ s.dec.interviewed = true) 3 2 0x72 Model.ClassRun.manufacturer [] [second, Props.ClassNet.manufacturerLife 2] := by
  refine .cons _ _ (.cons _ _ .nil rfl rfl rfl rfl rfl ?_ ?_) rfl rfl rfl rfl rfl ?_ ?_
  · intro f
    simp [Props.ClassNet.manufacturerLife, Props.ClassNet.manufacturerOps, Props.System.after100]
  · intro x v b f y e
    have : Op.load v b f ∈ (Props.ClassNet.manufacturerLife 2).ops := by rw [e]; simp
    simp [Props.ClassNet.manufacturerLife, Props.ClassNet.manufacturerOps, Props.System.after100] at this
  · intro f
    simp [second]
  · intro x v b f y e
    have hm : Op.load v b f ∈ second.ops := by rw [e]; simp
    simp only [second, List.mem_singleton, Op.load.injEq] at hm
    obtain ⟨rfl, rfl, rfl⟩ := hm
    refine ⟨at_ (Props.ClassNet.manufacturerLife 2) (Props.ClassNet.manufacturerLife 2).ops, ?_, .inl ⟨_, by simp, _, List.prefix_refl _, rfl⟩⟩
    have hn : NodeOk [(0x72, savedClass)] := by
      refine ⟨by decide, fun id c hm => ?_⟩
      rw [List.mem_singleton] at hm
      cases hm
      refine ⟨by decide, fun n v hm => ?_⟩
      simp only [savedClass, List.mem_cons, Prod.mk.injEq, List.not_mem_nil, or_false] at hm
      rcases hm with ⟨rfl, rfl⟩ | ⟨rfl, rfl⟩ | ⟨rfl, rfl⟩ <;> exact ⟨.leaf .num, by decide, trivial⟩
    have hf : Fresh [(0x72, ClassState.fresh)] := by
      intro id c hm
      rw [List.mem_singleton] at hm
      cases hm
      rfl
    obtain ⟨r, h1, -, h3⟩ := Props.Storage.C64_restored lib [] [] _ _ hn hf
    obtain ⟨c', g1, g2, g3⟩ := h3 0x72 savedClass (by decide) rfl (by decide)
    obtain ⟨c'', k1, k2⟩ := Props.Storage.C65_always lib [] [] _ _ hn hf 0x72 savedClass rfl (by decide)
    rw [h1] at k1
    cases g1.symm.trans k1
    have hs : at_ (Props.ClassNet.manufacturerLife 2) (Props.ClassNet.manufacturerLife 2).ops = (Props.ClassNet.manufacturerLife 2).now.cls := rfl
    have e1 : (Props.ClassNet.manufacturerLife 2).now.cls.dec.version = 2 := by decide +kernel
    have e3 : (Props.ClassNet.manufacturerLife 2).now.cls.dec.interviewed = true := by decide +kernel
    have e2 : (Props.ClassNet.manufacturerLife 2).now.cls.attrs = loadedValues := by decide +kernel
    refine ⟨⟨[], [], _, _, savedClass, c', hn, hf, by decide, rfl, by rw [hs, e1]; rfl, by rw [hs, e3]; rfl, ?_, by rw [h1]; exact g1, g2, k2, ?_⟩, by rw [hs, e3]⟩
    · intro n x hx
      rw [hs, e2]
      simp only [savedClass, Dict.get?] at hx
      simp only [loadedValues, Dict.get?]
      split at hx
      · rename_i h; rw [if_pos h]; cases hx; rfl
      · rename_i h; rw [if_neg h]
        split at hx
        · rename_i h; rw [if_pos h]; cases hx; rfl
        · rename_i h; rw [if_neg h]
          split at hx
          · rename_i h; rw [if_pos h]; cases hx; rfl
          · cases hx
    · intro d n x hx
      right
      have key : Dict.get? savedClass.attrs n = some (.leaf (.num x)) := by
        simp only [loadedValues, Dict.get?] at hx
        simp only [savedClass, Dict.get?]
        split at hx
        · rename_i h; rw [if_pos h]; cases hx; rfl
        · rename_i h; rw [if_neg h]
          split at hx
          · rename_i h; rw [if_pos h]; cases hx; rfl
          · rename_i h; rw [if_neg h]
            split at hx
            · rename_i h; rw [if_pos h]; cases hx; rfl
            · cases hx
      have := g3 n
      rw [key] at this
      cases hw : Dict.get? c'.attrs n with
      | none => rw [hw] at this; exact this.elim
      | some w =>
        rw [hw] at this
        cases w with
        | leaf w => rw [show w = Leaf.num x from this]
        | _ => exact this.elim

theorem runs_mono {R S : ClassRun.State σ → Nat → Bool → (σ → σ) → Prop} (hRS : ∀ s v b f, R s v b f → S s v b f) {root ep id : Nat} {c : Cls σ} {a : σ} {l : List (Life σ)}
    (hl : Runs R root ep id c a l) : Runs S root ep id c a l := by
  induction hl with
  | nil => exact .nil
  | cons h l hr h1 h2 h3 h4 h5 h6 h7 ih =>
    refine .cons h l ih h1 h2 h3 h4 h5 h6 fun x v b f y e => ?_
    obtain ⟨s, hs, w⟩ := h7 x v b f y e
    exact ⟨s, hRS s v b f hs, w⟩

theorem second_runs (lib : Yaml) : Runs (FromFile lib numbers 0x72) 3 2 0x72 Model.ClassRun.manufacturer [] [second, Props.ClassNet.manufacturerLife 2] :=
  runs_mono (fun _ _ _ _ h => h.1) (second_marked lib)

/-- After the restart the class has its values, and the node has reported them in the run before: it said nothing in this one. -/
example (lib : Yaml) : second.now.cls.dec.version = 2 ∧ second.now.cls.attrs = loadedValues ∧
    (∃ h' ∈ [second, Props.ClassNet.manufacturerLife 2], ∃ m, h'.Said m ∧ m.hid = Query.manufacturer.awaits.hid ∧ Says m "productID" 3) :=
  ⟨rfl, rfl, C163_values .manufacturer Classes.Copy.manufacturerNames (by simp [ClassRun.copied]) (second_runs lib) second (by simp) _ ⟨_, List.prefix_refl _, rfl⟩ "productID" 3 rfl⟩

/-! ## C164 -/

/-- In one of the runs an interview of the class has ended in a way that marks the class. -/
def Interviewed (l : List (Life σ)) : Prop := ∃ h ∈ l, ∃ s, Was h s ∧ ∃ i v, ClassRun.EndedWell s i v

/-- The full property: however often the program is started again, a class is marked as interviewed only if it was interviewed, in this run or an earlier one. -/
def C164_statement (lib : Yaml) : Prop := ∀ (root ep id : Nat) (c : Cls (Dict String Int)) (l : List (Life (Dict String Int))), Runs (FromFile lib numbers id) root ep id c [] l →
  ∀ h ∈ l, ∀ s, Was h s → s.dec.interviewed = true → Interviewed l

/-- In the first run the class is not interviewed before the program ends, but the node is saved (because another class has been interviewed). In the second run the file is loaded. -/
def neverAsked : Life (Dict String Int) := { Props.ClassNet.manufacturerLife 2 with ops := [] }

def marked : Life (Dict String Int) := { Props.ClassNet.manufacturerLife 2 with ops := [.load 0 true fun d => d] }

/-- **C164** does not hold, with every YAML library: a class that was saved is marked after loading (C65). -/
theorem C164_violated (lib : Yaml) : ¬ C164_statement lib := by
  intro h
  have hr : Runs (FromFile lib numbers 0x72) 3 2 0x72 Model.ClassRun.manufacturer [] [marked, neverAsked] := by
    refine .cons _ _ (.cons _ _ .nil rfl rfl rfl rfl rfl (by simp [neverAsked]) ?_) rfl rfl rfl rfl rfl (by simp [marked]) ?_
    · intro x v b f y e
      simp [neverAsked] at e
    · intro x v b f y e
      have hm : Op.load v b f ∈ marked.ops := by rw [e]; simp
      simp only [marked, List.mem_singleton, Op.load.injEq] at hm
      obtain ⟨rfl, rfl, rfl⟩ := hm
      refine ⟨at_ neverAsked [], ?_, .inl ⟨_, by simp, _, List.prefix_refl _, rfl⟩⟩
      have hn : NodeOk [(0x72, ClassState.fresh)] := by
        refine ⟨by decide, fun id c hm => ?_⟩
        rw [List.mem_singleton] at hm
        cases hm
        exact ⟨by decide, by simp [ClassState.fresh]⟩
      have hf : Fresh [(0x72, ClassState.fresh)] := by
        intro id c hm
        rw [List.mem_singleton] at hm
        cases hm
        rfl
      obtain ⟨c', k1, k2⟩ := Props.Storage.C65_always lib [] [] _ _ hn hf 0x72 .fresh rfl (by decide)
      have e1 : at_ neverAsked [] = ClassRun.fresh 0x72 [] := by
        have : ∀ l : List System.Op, (neverAsked.after (l.map .sys)).cls = ClassRun.fresh 0x72 [] := by
          intro l
          induction l using Conn.snoc_ind with
          | nil => rfl
          | snoc l o ih => rw [List.map_append, Life.after, run, List.foldl_append]; exact ih
        rw [at_, List.append_nil]
        exact this _
      refine ⟨[], [], _, _, .fresh, c', hn, hf, by decide, rfl, by rw [e1]; rfl, by rw [e1]; rfl, ?_, k1, (file_same lib hn hf (by decide) rfl k1).1, k2, fun d n x hx => .inl hx⟩
      intro n x hx
      cases hx
  obtain ⟨h', hh, s, ⟨p, hp, rfl⟩, i, v, ⟨b, hi⟩, -⟩ := h 3 2 0x72 _ _ hr marked (by simp) (at_ marked marked.ops) ⟨_, List.prefix_refl _, rfl⟩ rfl
  have none : (at_ h' p).dec.calls = [] := by
    rcases List.mem_cons.mp hh with rfl | hh
    · rcases List.prefix_cons_iff.mp hp with rfl | ⟨t, rfl, ht⟩
      · decide +kernel
      · rw [List.prefix_nil.mp ht]; rfl
    · rw [List.mem_singleton] at hh
      subst hh
      rw [List.prefix_nil.mp hp]
      decide +kernel
  rw [none] at hi
  cases hi

/-- **C164**, as far as it holds: it holds if nodes are only saved when the class is marked. -/
theorem C164_partial {lib : Yaml} {F : Form σ} {root ep id : Nat} {c : Cls σ} {a : σ} {l : List (Life σ)}
    (hl : Runs (fun s v b f => FromFile lib F id s v b f ∧ s.dec.interviewed = true) root ep id c a l) (h : Life σ) (hh : h ∈ l) (s : ClassRun.State σ) (hs : Was h s)
    (hm : s.dec.interviewed = true) : Interviewed l := by
  refine always (fun l s => s.dec.interviewed = true → Interviewed l) (fun h l s hs hm => by obtain ⟨h', e, w⟩ := hs hm; exact ⟨h', List.mem_cons_of_mem _ e, w⟩) ?_ hl h hh s hs hm
  intro h l p hp _ _ _ _ _ _ hload hm
  by_cases hx : ∃ v b f, Op.load v b f ∈ p
  · obtain ⟨v, b, f, hx⟩ := hx
    obtain ⟨s, ⟨-, h1⟩, h2⟩ := hload v b f hx
    exact h2 h1
  · obtain ⟨os, cs, w⟩ := Props.ClassNet.whole (until_ h p)
    have e : at_ h p = ClassRun.run h.c (ClassRun.fresh h.id h.attrs) cs := w.cls
    have hn : ClassRun.NoMark cs := by
      rintro o ho v f rfl
      refine hx ⟨v, true, f, ?_⟩
      have := w.load v true f ho
      rcases List.mem_append.mp this with h | h
      · simp at h
      · exact h
    obtain ⟨i, v, -, -, h1, -⟩ := Props.ClassRun.C149_marked _ _ _ cs hn (by rw [← e]; exact hm)
    exact ⟨h, by simp, _, ⟨p, hp, rfl⟩, i, v, by rw [e]; exact h1⟩

/-- After the restart the class is marked, and it was interviewed in the run before. -/
example (lib : Yaml) : second.now.cls.dec.interviewed = true ∧ second.now.cls.dec.calls = [] ∧ Interviewed [second, Props.ClassNet.manufacturerLife 2] :=
  ⟨rfl, by decide +kernel, C164_partial (second_marked lib) second (by simp) _ ⟨_, List.prefix_refl _, rfl⟩ rfl⟩

end Props.Restarts

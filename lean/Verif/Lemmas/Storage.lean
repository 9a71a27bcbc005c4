import Verif.Spec.Storage
import Verif.Lemmas.Dict
import Verif.Lemmas.Text
import Verif.Props.Text
/-!
# Lemmas about saving and loading
-/
namespace Model.Storage
open Spec.Storage

theorem stringsL_eq (l : List Y) : stringsL l = l.map strings := by
  induction l with
  | nil => rfl
  | cons y l ih => simp [stringsL, ih]

theorem stringsM_eq (l : List (Key × Y)) : stringsM l = l.map fun p => (p.1.text, strings p.2) := by
  induction l with
  | nil => rfl
  | cons y l ih => obtain ⟨k, y⟩ := y; simp [stringsM, ih]

theorem keys_eq {κ α : Type} (d : Dict κ α) : Dict.keys d = d.map Prod.fst := rfl

/-- Looking up in a dict whose keys and values were translated. -/
theorem get?_map {κ κ' α β : Type} [DecidableEq κ] [DecidableEq κ'] (enc : κ → κ') (φ : α → β) (inj : ∀ a b, enc a = enc b → a = b) (d : Dict κ α) (k : κ) :
    Dict.get? (d.map fun p => (enc p.1, φ p.2)) (enc k) = (Dict.get? d k).map φ := by
  induction d with
  | nil => rfl
  | cons p d ih =>
    obtain ⟨a, v⟩ := p
    simp only [List.map_cons, Dict.get?]
    by_cases h : a = k
    · subst h; simp
    · have : enc a ≠ enc k := fun e => h (inj _ _ e)
      simp only [h, this, if_false]; exact ih

theorem mem_keys_map {κ κ' α β : Type} (enc : κ → κ') (φ : α → β) (d : Dict κ α) (k' : κ') :
    k' ∈ Dict.keys (d.map fun p => (enc p.1, φ p.2)) ↔ ∃ k ∈ Dict.keys d, enc k = k' := by
  simp only [keys_eq, List.map_map, List.mem_map, Function.comp]
  constructor
  · rintro ⟨p, hp, rfl⟩; exact ⟨p.1, ⟨p, hp, rfl⟩, rfl⟩
  · rintro ⟨k, ⟨p, hp, rfl⟩, rfl⟩; exact ⟨p, hp, rfl⟩

theorem nodup_keys_map {κ κ' α β : Type} (enc : κ → κ') (φ : α → β) (inj : ∀ a b, enc a = enc b → a = b) (d : Dict κ α) (h : (Dict.keys d).Nodup) :
    (Dict.keys (d.map fun p => (enc p.1, φ p.2))).Nodup := by
  have : Dict.keys (d.map fun p => (enc p.1, φ p.2)) = (Dict.keys d).map enc := by simp [keys_eq]
  rw [this]
  exact List.Pairwise.map enc (fun a b hab e => hab (inj a b e)) h

theorem get?_of_mem {κ α : Type} [DecidableEq κ] {d : Dict κ α} {k : κ} {v : α} (h : (Dict.keys d).Nodup) (hm : (k, v) ∈ d) : Dict.get? d k = some v := by
  induction d with
  | nil => cases hm
  | cons p d ih =>
    obtain ⟨a, w⟩ := p
    simp only [keys_eq, List.map_cons, List.nodup_cons] at h
    simp only [Dict.get?]
    rcases List.mem_cons.1 hm with e | e
    · cases e; simp
    · have : a ≠ k := by rintro rfl; exact h.1 (List.mem_map.2 ⟨_, e, rfl⟩)
      simp only [this, if_false]; exact ih h.2 e

theorem intStr_inj (a b : Int) (h : intStr a = intStr b) : a = b := by
  have := pyInt_intStr a; rw [h, pyInt_intStr] at this; cases this; rfl

theorem natStr_inj (a b : Nat) (h : natStr a = natStr b) : a = b := by
  have := pyInt_natStr a; rw [h, pyInt_natStr] at this; cases this; rfl

theorem toList_inj (a b : String) (h : a.toList = b.toList) : a = b := String.toList_inj.1 h

/-! ## Same -/

theorem same_str {l : L} {s : Str} (h : Same l (.str s)) : l = .str s := by cases h; rfl

theorem same_map {l : L} {g : Dict Str L} (h : Same l (.map g)) : ∃ f, l = .map f ∧ (Dict.keys f).Nodup ∧ (∀ k, k ∈ Dict.keys f ↔ k ∈ Dict.keys g) ∧
    ∀ k a b, Dict.get? f k = some a → Dict.get? g k = some b → Same a b := by
  cases h with
  | map f _ h1 h2 h3 => exact ⟨f, rfl, h1, h2, h3⟩

theorem same_seq {l : L} {g : List L} (h : Same l (.seq g)) (flat : ∀ x ∈ g, ∀ y, Same y x → y = x) : l = .seq g := by
  cases h with
  | seq f _ h1 h2 =>
    congr 1
    apply List.ext_getElem? 
    intro i
    by_cases hi : i < f.length
    · have hi' : i < g.length := h1 ▸ hi
      have e1 := List.getElem?_eq_getElem hi
      have e2 := List.getElem?_eq_getElem hi'
      rw [e1, e2]
      exact congrArg some (flat _ (List.getElem_mem hi') _ (h2 i _ _ e1 e2))
    · rw [List.getElem?_eq_none (by omega), List.getElem?_eq_none (by omega)]

theorem Same.get {f g : Dict Str L} (h2 : ∀ k, k ∈ Dict.keys f ↔ k ∈ Dict.keys g) {k : Str} {a : L} (h : Dict.get? f k = some a) : ∃ b, Dict.get? g k = some b := by
  have : k ∈ Dict.keys g := (h2 k).1 ((Dict.get?_isSome_iff f k).1 (by simp [h]))
  have := (Dict.get?_isSome_iff g k).2 this
  exact Option.isSome_iff_exists.1 this

theorem Same.refl {l : L} (h : Distinct l) : Same l l := by
  induction h with
  | str s => exact .str s
  | seq l _ ih =>
    refine .seq l l rfl fun i a b ha hb => ?_
    rw [ha] at hb; cases hb
    exact ih a (List.mem_of_getElem? ha)
  | map m h _ ih =>
    refine .map m m h (fun _ => Iff.rfl) fun k a b ha hb => ?_
    rw [ha] at hb; cases hb
    exact ih k a (Dict.mem_of_get? ha)

/-! ## Simple values -/

theorem loadTexts_str (l : List Str) : loadTexts (l.map .str) = .ok l := by
  induction l with
  | nil => rfl
  | cons s l ih => simp [loadTexts, ih, bind, Except.bind, pure, Except.pure]

theorem cell_strings (c : Cell) : ∃ s, strings (cellState c) = .str s ∧ textual c = .str s := by
  cases c <;> exact ⟨_, rfl, rfl⟩

theorem cells_strings (c : List Cell) : ∃ ss : List Str, (c.map cellState).map strings = ss.map .str ∧ c.map textual = ss.map .str := by
  induction c with
  | nil => exact ⟨[], rfl, rfl⟩
  | cons a c ih =>
    obtain ⟨s, h1, h2⟩ := cell_strings a
    obtain ⟨ss, h3, h4⟩ := ih
    exact ⟨s :: ss, by simp [h1] at h3 ⊢; exact h3, by simp [h2, h4]⟩

theorem loadCells_strings (l : List (List Cell)) : loadCells (stringsL (l.map fun c => .seq (c.map cellState))) = .ok (l.map fun c => c.map textual) := by
  induction l with
  | nil => rfl
  | cons c l ih =>
    obtain ⟨ss, h1, h2⟩ := cells_strings c
    simp only [List.map_cons, stringsL, strings, loadCells]
    rw [stringsL_eq, h1, loadTexts_str, ih]
    simp [h2, bind, Except.bind, pure, Except.pure]

theorem flat_strs (l : List Str) : ∀ x ∈ l.map L.str, ∀ y, Same y x → y = x := by
  intro x hx y h
  obtain ⟨s, _, rfl⟩ := List.mem_map.1 hx
  exact same_str h

theorem flat_cells (l : List (List Cell)) : ∀ x ∈ stringsL (l.map fun c => .seq (c.map cellState)), ∀ y, Same y x → y = x := by
  intro x hx y h
  rw [stringsL_eq] at hx
  obtain ⟨z, hz, rfl⟩ := List.mem_map.1 hx
  obtain ⟨c, _, rfl⟩ := List.mem_map.1 hz
  obtain ⟨ss, h1, _⟩ := cells_strings c
  simp only [strings, stringsL_eq, h1] at h ⊢
  exact same_seq h (flat_strs ss)

theorem loadLeaf_saved {t : LeafTy} {v : Leaf} (h : LeafOk t v) {l : L} (hl : Same l (strings (leafState v))) : loadLeaf t l = .ok (leafLoaded v) := by
  cases t <;> cases v <;> simp only [LeafOk] at h
  · rw [same_str hl]; simp [loadLeaf, loadNum, pyInt_intStr, bind, Except.bind, pure, Except.pure, leafLoaded]
  · rw [same_str hl]; rfl
  · rename_i ns
    have e : (strings (leafState (.nodes ns))) = .seq ((nodesGetState ns).map .str) := by
      simp only [leafState, strings, stringsL_eq, List.map_map]
      congr 1
    rw [e] at hl
    rw [same_seq hl (flat_strs _)]
    simp only [loadLeaf, loadTexts_str, bind, Except.bind, pure, Except.pure, Props.C17_nodes_state, leafLoaded]
  · rename_i c
    simp only [leafState, strings] at hl
    rw [same_seq hl (flat_cells c)]
    simp only [loadLeaf, loadCells_strings, bind, Except.bind, pure, Except.pure, leafLoaded]

/-! ## Objects with attributes -/

theorem loadFields_ok (m : Dict Str L) (P : String → Leaf → Prop) (fields : List (String × LeafTy)) (hnd : (fields.map Prod.fst).Nodup)
    (h : ∀ n t l, (n, t) ∈ fields → Dict.get? m n.toList = some l → ∃ v, loadLeaf t l = .ok v ∧ P n v) :
    ∀ d, ∃ r, loadFields m fields d = .ok r ∧ ∀ n, (n ∈ fields.map Prod.fst → n.toList ∈ Dict.keys m → ∃ v, Dict.get? r n = some v ∧ P n v) ∧
      (¬ (n ∈ fields.map Prod.fst ∧ n.toList ∈ Dict.keys m) → Dict.get? r n = Dict.get? d n) := by
  induction fields with
  | nil => intro d; exact ⟨d, rfl, fun n => ⟨fun h => by simp at h, fun _ => rfl⟩⟩
  | cons p fields ih =>
    obtain ⟨a, t⟩ := p
    intro d
    simp only [List.map_cons, List.nodup_cons] at hnd
    have ih := ih hnd.2 (fun n t l hm => h n t l (List.mem_cons_of_mem _ hm))
    simp only [loadFields]
    cases hg : Dict.get? m a.toList with
    | none =>
      have hno : a.toList ∉ Dict.keys m := (Dict.get?_eq_none_iff _ _).1 hg
      obtain ⟨r, h1, h2⟩ := ih d
      refine ⟨r, h1, fun n => ⟨fun hm hk => ?_, fun hn => (h2 n).2 fun hh => hn ⟨by simp [hh.1], hh.2⟩⟩⟩
      simp only [List.map_cons, List.mem_cons] at hm
      rcases hm with rfl | hm
      · exact absurd hk hno
      · exact (h2 n).1 hm hk
    | some l =>
      obtain ⟨v, hv, hp⟩ := h a t l (by simp) hg
      obtain ⟨r, h1, h2⟩ := ih (Dict.set d a v)
      refine ⟨r, by simp [hv, bind, Except.bind, h1], fun n => ⟨fun hm hk => ?_, fun hn => ?_⟩⟩
      · by_cases hna : n = a
        · subst hna
          exact ⟨v, by rw [(h2 n).2 (fun hh => hnd.1 hh.1)]; simp, hp⟩
        · simp only [List.map_cons, List.mem_cons] at hm
          exact (h2 n).1 (hm.resolve_left hna) hk
      · have hk : a.toList ∈ Dict.keys m := (Dict.get?_isSome_iff _ _).1 (by simp [hg])
        have hna : a ≠ n := by rintro rfl; exact hn ⟨by simp, hk⟩
        rw [(h2 n).2 (fun hh => hn ⟨by simp [hh.1], hh.2⟩), Dict.get?_set_ne _ _ hna]

theorem strings_map (l : List (Key × Y)) : strings (.map l) = .map (l.map fun p => (p.1.text, strings p.2)) := by
  simp only [strings, stringsM_eq]

theorem recStrings (d : Dict String Leaf) : strings (recState d) = .map (d.map fun p => (p.1.toList, strings (leafState p.2))) := by
  simp only [recState, strings_map, List.map_map]
  rfl

theorem mem_types_unique {α : Type} {types : List (String × α)} (hnd : (types.map Prod.fst).Nodup) {n : String} {s t : α} (h1 : (n, s) ∈ types) (h2 : (n, t) ∈ types) : s = t := by
  have a := get?_of_mem (d := types) hnd h1
  have b := get?_of_mem (d := types) hnd h2
  rw [a] at b; cases b; rfl

theorem loadRec_saved {fields : List (String × LeafTy)} (hnd : (fields.map Prod.fst).Nodup) {d : Dict String Leaf} (h : RecOk fields d) {l : L}
    (hl : Same l (strings (recState d))) : ∃ r, loadRec fields l = .ok r ∧ SameRec r (recLoaded d) := by
  rw [recStrings] at hl
  obtain ⟨m, rfl, _, hk, hv⟩ := same_map hl
  have hkey : ∀ n : String, n.toList ∈ Dict.keys m ↔ n ∈ Dict.keys d := by
    intro n
    rw [hk, mem_keys_map String.toList (fun v => strings (leafState v))]
    exact ⟨fun ⟨k, h1, h2⟩ => toList_inj _ _ h2 ▸ h1, fun hh => ⟨n, hh, rfl⟩⟩
  have hget := get?_map String.toList (fun v => strings (leafState v)) toList_inj d
  obtain ⟨r, h1, h2⟩ := loadFields_ok m (fun n v => ∃ w, Dict.get? d n = some w ∧ v = leafLoaded w) fields hnd (by
    intro n t l hm hg
    have : n ∈ Dict.keys d := (hkey n).1 ((Dict.get?_isSome_iff _ _).1 (by simp [hg]))
    obtain ⟨w, hw⟩ := Option.isSome_iff_exists.1 ((Dict.get?_isSome_iff _ _).2 this)
    obtain ⟨t', ht', hok⟩ := h.2 n w (Dict.mem_of_get? hw)
    rw [mem_types_unique hnd ht' hm] at hok
    exact ⟨_, loadLeaf_saved hok (hv _ _ _ hg (by rw [hget n, hw]; rfl)), w, hw, rfl⟩) []
  refine ⟨r, h1, fun n => ?_⟩
  have e : Dict.get? (recLoaded d) n = (Dict.get? d n).map leafLoaded := get?_map (fun n : String => n) leafLoaded (fun _ _ e => e) d n
  rw [e]
  cases hw : Dict.get? d n with
  | none =>
    have : n ∉ Dict.keys d := (Dict.get?_eq_none_iff _ _).1 hw
    rw [(h2 n).2 (fun hh => this ((hkey n).1 hh.2))]; rfl
  | some w =>
    have hin : n ∈ Dict.keys d := (Dict.get?_isSome_iff _ _).1 (by simp [hw])
    obtain ⟨t', ht', _⟩ := h.2 n w (Dict.mem_of_get? hw)
    obtain ⟨v, g1, w', g2, g3⟩ := (h2 n).1 (List.mem_map.2 ⟨_, ht', rfl⟩) ((hkey n).2 hin)
    rw [hw] at g2; cases g2
    rw [g1, g3]; rfl

/-! ## Dicts with numbers as keys -/

theorem loadEntries_ok {α : Type} (f : L → Py α) (P : Int → α → Prop) (m : Dict Str L) (hnd : (Dict.keys m).Nodup)
    (h : ∀ s l, (s, l) ∈ m → ∃ k v, s = intStr k ∧ f l = .ok v ∧ P k v) :
    ∀ d, ∃ r, loadEntries f m d = .ok r ∧ ∀ k, (intStr k ∈ Dict.keys m → ∃ v, Dict.get? r k = some v ∧ P k v) ∧ (intStr k ∉ Dict.keys m → Dict.get? r k = Dict.get? d k) := by
  induction m with
  | nil => intro d; exact ⟨d, rfl, fun k => ⟨fun h => by simp [Dict.keys] at h, fun _ => rfl⟩⟩
  | cons p m ih =>
    obtain ⟨s, l⟩ := p
    intro d
    simp only [keys_eq, List.map_cons, List.nodup_cons] at hnd
    obtain ⟨k, v, rfl, hv, hp⟩ := h s l (by simp)
    obtain ⟨r, h1, h2⟩ := ih hnd.2 (fun s l hm => h s l (List.mem_cons_of_mem _ hm)) (Dict.set d k v)
    refine ⟨r, by simp [loadEntries, hv, pyInt_intStr, bind, Except.bind, h1], fun n => ⟨fun hm => ?_, fun hn => ?_⟩⟩
    · by_cases hnk : n = k
      · subst hnk
        exact ⟨v, by rw [(h2 n).2 hnd.1]; simp, hp⟩
      · simp only [keys_eq, List.map_cons, List.mem_cons] at hm
        exact (h2 n).1 (hm.resolve_left fun e => hnk (intStr_inj _ _ e))
    · simp only [keys_eq, List.map_cons, List.mem_cons, not_or] at hn
      rw [(h2 n).2 hn.2, Dict.get?_set_ne]
      rintro rfl; exact hn.1 rfl

/-- Loading the entries of a saved dict. -/
theorem loadEntries_saved {α β : Type} (f : L → Py α) (st : β → Y) (R : α → β → Prop) (d : Dict Int β) {l : L} (hl : Same l (strings (.map (d.map fun p => (.num p.1, st p.2)))))
    (h : ∀ k b l, Dict.get? d k = some b → Same l (strings (st b)) → ∃ v, f l = .ok v ∧ R v b) :
    ∃ m r, l = .map m ∧ loadEntries f m [] = .ok r ∧ ∀ k, match Dict.get? r k, Dict.get? d k with
      | none, none => True
      | some v, some b => R v b
      | _, _ => False := by
  have e : strings (.map (d.map fun p => (.num p.1, st p.2))) = .map (d.map fun p => (intStr p.1, strings (st p.2))) := by
    rw [strings_map, List.map_map]; rfl
  rw [e] at hl
  obtain ⟨m, rfl, hnd, hk, hv⟩ := same_map hl
  have hkey : ∀ n : Int, intStr n ∈ Dict.keys m ↔ n ∈ Dict.keys d := by
    intro n
    rw [hk, mem_keys_map intStr (fun v => strings (st v))]
    exact ⟨fun ⟨k, h1, h2⟩ => intStr_inj _ _ h2 ▸ h1, fun hh => ⟨n, hh, rfl⟩⟩
  have hget := get?_map intStr (fun v => strings (st v)) intStr_inj d
  obtain ⟨r, h1, h2⟩ := loadEntries_ok f (fun k v => ∃ b, Dict.get? d k = some b ∧ R v b) m hnd (by
    intro s l hm
    have hs : s ∈ Dict.keys m := List.mem_map.2 ⟨_, hm, rfl⟩
    obtain ⟨k, hkd, rfl⟩ := (mem_keys_map intStr (fun v => strings (st v)) d s).1 ((hk s).1 hs)
    obtain ⟨b, hb⟩ := Option.isSome_iff_exists.1 ((Dict.get?_isSome_iff _ _).2 hkd)
    obtain ⟨v, hv1, hv2⟩ := h k b l hb (hv _ _ _ (get?_of_mem hnd hm) (by rw [hget k, hb]; rfl))
    exact ⟨k, v, rfl, hv1, b, hb, hv2⟩) []
  refine ⟨m, r, rfl, h1, fun k => ?_⟩
  cases hd : Dict.get? d k with
  | none =>
    have : k ∉ Dict.keys d := (Dict.get?_eq_none_iff _ _).1 hd
    rw [(h2 k).2 (fun hh => this ((hkey k).1 hh))]; trivial
  | some b =>
    obtain ⟨v, g1, b', g2, g3⟩ := (h2 k).1 ((hkey k).2 ((Dict.get?_isSome_iff _ _).1 (by simp [hd])))
    rw [hd] at g2; cases g2
    rw [g1]; exact g3

/-! ## Attributes of command classes -/

/-- Names of attributes are distinct. -/
def AttrTy.distinct : AttrTy → Prop
  | .recs fields => (fields.map Prod.fst).Nodup
  | _ => True

theorem loadAttr_saved {t : AttrTy} (ht : t.distinct) {a : Attr} (h : AttrOk t a) {l : L} (hl : Same l (strings (attrState a))) :
    ∃ b, loadAttr t l = .ok b ∧ SameAttr b (attrLoaded a) := by
  cases t <;> cases a <;> simp only [AttrOk] at h
  · rename_i t v
    exact ⟨.leaf (leafLoaded v), by simp [loadAttr, loadLeaf_saved h hl, bind, Except.bind, pure, Except.pure], rfl⟩
  · rename_i d
    obtain ⟨m, r, rfl, h1, h2⟩ := loadEntries_saved loadNum (fun n => .num n) (fun v b => v = b) d hl (by
      intro k b l _ hs
      rw [same_str hs]
      exact ⟨b, pyInt_intStr b, rfl⟩)
    refine ⟨.nums r, by simp [loadAttr, h1, bind, Except.bind, pure, Except.pure], fun k => ?_⟩
    have := h2 k
    revert this
    cases Dict.get? r k <;> cases Dict.get? d k <;> simp
  · rename_i fields d
    obtain ⟨m, r, rfl, h1, h2⟩ := loadEntries_saved (loadRec fields) recState (fun v b => SameRec v (recLoaded b)) d hl (by
      intro k b l hg hs
      exact loadRec_saved ht (h.2 k b (Dict.mem_of_get? hg)) hs)
    refine ⟨.recs r, by simp [loadAttr, h1, bind, Except.bind, pure, Except.pure], fun k => ?_⟩
    have := h2 k
    have e : Dict.get? (d.map fun p => (p.1, recLoaded p.2)) k = (Dict.get? d k).map recLoaded := get?_map (fun n : Int => n) recLoaded (fun _ _ e => e) d k
    rw [e]
    revert this
    cases Dict.get? r k <;> cases Dict.get? d k <;> simp

theorem loadAttrs_ok (m : Dict Str L) (P : String → Attr → Prop) (types : List (String × AttrTy)) (hnd : (types.map Prod.fst).Nodup)
    (h : ∀ n t l, (n, t) ∈ types → Dict.get? m n.toList = some l → ∃ v, loadAttr t l = .ok v ∧ P n v) :
    ∀ d, ∃ r, loadAttrs m types d = (r, .ok ()) ∧ ∀ n, (n ∈ types.map Prod.fst → n.toList ∈ Dict.keys m → ∃ v, Dict.get? r n = some v ∧ P n v) ∧
      (¬ (n ∈ types.map Prod.fst ∧ n.toList ∈ Dict.keys m) → Dict.get? r n = Dict.get? d n) := by
  induction types with
  | nil => intro d; exact ⟨d, rfl, fun n => ⟨fun h => by simp at h, fun _ => rfl⟩⟩
  | cons p types ih =>
    obtain ⟨a, t⟩ := p
    intro d
    simp only [List.map_cons, List.nodup_cons] at hnd
    have ih := ih hnd.2 (fun n t l hm => h n t l (List.mem_cons_of_mem _ hm))
    simp only [loadAttrs]
    cases hg : Dict.get? m a.toList with
    | none =>
      have hno : a.toList ∉ Dict.keys m := (Dict.get?_eq_none_iff _ _).1 hg
      obtain ⟨r, h1, h2⟩ := ih d
      refine ⟨r, h1, fun n => ⟨fun hm hk => ?_, fun hn => (h2 n).2 fun hh => hn ⟨by simp [hh.1], hh.2⟩⟩⟩
      simp only [List.map_cons, List.mem_cons] at hm
      rcases hm with rfl | hm
      · exact absurd hk hno
      · exact (h2 n).1 hm hk
    | some l =>
      obtain ⟨v, hv, hp⟩ := h a t l (by simp) hg
      obtain ⟨r, h1, h2⟩ := ih (Dict.set d a v)
      refine ⟨r, by simp [hv, h1], fun n => ⟨fun hm hk => ?_, fun hn => ?_⟩⟩
      · by_cases hna : n = a
        · subst hna
          exact ⟨v, by rw [(h2 n).2 (fun hh => hnd.1 hh.1)]; simp, hp⟩
        · simp only [List.map_cons, List.mem_cons] at hm
          exact (h2 n).1 (hm.resolve_left hna) hk
      · have hk : a.toList ∈ Dict.keys m := (Dict.get?_isSome_iff _ _).1 (by simp [hg])
        have hna : a ≠ n := by rintro rfl; exact hn ⟨by simp, hk⟩
        rw [(h2 n).2 (fun hh => hn ⟨by simp [hh.1], hh.2⟩), Dict.get?_set_ne _ _ hna]

/-- What `attrsOf` declares: distinct names, none of them `interviewed` or `version`. -/
def GoodTypes (types : List (String × AttrTy)) : Prop :=
  (types.map Prod.fst).Nodup ∧ (∀ n t, (n, t) ∈ types → t.distinct) ∧ "interviewed" ∉ types.map Prod.fst ∧ "version" ∉ types.map Prod.fst

instance : DecidablePred AttrTy.distinct := fun t => by cases t <;> unfold AttrTy.distinct <;> infer_instance

theorem good_attrsOf (id : Nat) : GoodTypes (attrsOf id) := by
  have key : ∀ types : List (String × AttrTy), (∀ p ∈ types, p.2.distinct) → ∀ n t, (n, t) ∈ types → t.distinct := fun _ h n t hm => h _ hm
  unfold attrsOf
  repeat' split
  all_goals exact ⟨by decide, key _ (by decide), by decide, by decide⟩

theorem get?_append {κ α : Type} [DecidableEq κ] (a b : Dict κ α) (k : κ) : Dict.get? (a ++ b) k = (Dict.get? a k).or (Dict.get? b k) := by
  induction a with
  | nil => simp
  | cons p a ih =>
    obtain ⟨x, v⟩ := p
    simp only [List.cons_append, Dict.get?]
    split
    · rfl
    · exact ih

/-- The saved form of a command class with all scalars as text. -/
def classStrings (c : ClassState) : Dict Str L :=
  c.attrs.map (fun p => (p.1.toList, strings (attrState p.2))) ++
    [("interviewed".toList, .str (if c.interviewed then "true".toList else "false".toList)), ("version".toList, .str (intStr c.version))]

theorem strings_classState (c : ClassState) : strings (classState c) = .map (classStrings c) := by
  simp only [classState, strings_map, classStrings, List.map_append, List.map_map]
  rfl

theorem typed_name {types : List (String × AttrTy)} {d : Dict String Attr} (h : Typed types d) {n : String} (hn : n ∈ Dict.keys d) : n ∈ types.map Prod.fst := by
  obtain ⟨⟨n', v⟩, hp, rfl⟩ := List.mem_map.1 hn
  obtain ⟨t, ht, _⟩ := h.2 _ v hp
  exact List.mem_map.2 ⟨_, ht, rfl⟩

theorem get?_two_none (a b k : Str) (x y : L) (h1 : a ≠ k) (h2 : b ≠ k) : Dict.get? [(a, x), (b, y)] k = none := by
  simp only [Dict.get?, if_neg h1, if_neg h2]

theorem classStrings_attr {types : List (String × AttrTy)} (hg : GoodTypes types) (c : ClassState) {n : String} (hn : n ∈ types.map Prod.fst) :
    Dict.get? (classStrings c) n.toList = (Dict.get? c.attrs n).map fun a => strings (attrState a) := by
  have h1 : "interviewed".toList ≠ n.toList := fun e => hg.2.2.1 (toList_inj _ _ e ▸ hn)
  have h2 : "version".toList ≠ n.toList := fun e => hg.2.2.2 (toList_inj _ _ e ▸ hn)
  rw [classStrings, get?_append, get?_map String.toList (fun a => strings (attrState a)) toList_inj]
  have : Dict.get? [("interviewed".toList, L.str (if c.interviewed then "true".toList else "false".toList)), ("version".toList, .str (intStr c.version))] n.toList = none := by
    exact get?_two_none _ _ _ _ _ h1 h2
  rw [this]; simp

theorem classStrings_own {types : List (String × AttrTy)} (hg : GoodTypes types) (c : ClassState) (h : Typed types c.attrs) :
    Dict.get? (classStrings c) "interviewed".toList = some (.str (if c.interviewed then "true".toList else "false".toList)) ∧
    Dict.get? (classStrings c) "version".toList = some (.str (intStr c.version)) := by
  have key : ∀ s : String, s ∉ types.map Prod.fst → Dict.get? (c.attrs.map fun p => (p.1.toList, strings (attrState p.2))) s.toList = none := by
    intro s hs
    rw [get?_map String.toList (fun a => strings (attrState a)) toList_inj, (Dict.get?_eq_none_iff _ _).2 (fun hk => hs (typed_name h hk))]; rfl
  constructor
  · rw [classStrings, get?_append, key _ hg.2.2.1]; rfl
  · rw [classStrings, get?_append, key _ hg.2.2.2]; rfl

/-- Loading a command class, whatever it was before. -/
theorem setState_loaded {types : List (String × AttrTy)} (hg : GoodTypes types) {c : ClassState} (h : Typed types c.attrs) (c0 : ClassState) {l : L}
    (hl : Same l (strings (classState c))) : ∃ a, setState types c0 l = (⟨c.version, true, a⟩, .ok ()) ∧
      ∀ n, match Dict.get? c.attrs n with
        | none => Dict.get? a n = Dict.get? c0.attrs n
        | some w => ∃ v, Dict.get? a n = some v ∧ SameAttr v (attrLoaded w) := by
  rw [strings_classState] at hl
  obtain ⟨m, rfl, _, hk, hv⟩ := same_map hl
  have look : ∀ k b, Dict.get? (classStrings c) k = some b → ∃ a, Dict.get? m k = some a ∧ Same a b := by
    intro k b hb
    have : k ∈ Dict.keys m := (hk k).2 ((Dict.get?_isSome_iff _ _).1 (by simp [hb]))
    obtain ⟨a, ha⟩ := Option.isSome_iff_exists.1 ((Dict.get?_isSome_iff _ _).2 this)
    exact ⟨a, ha, hv _ _ _ ha hb⟩
  obtain ⟨hi, hver⟩ := classStrings_own hg c h
  obtain ⟨a1, ha1, hs1⟩ := look _ _ hi
  obtain ⟨a2, ha2, hs2⟩ := look _ _ hver
  have e1 := same_str hs1
  have e2 := same_str hs2
  subst e1; subst e2
  have hkey : ∀ n : String, n ∈ types.map Prod.fst → (n.toList ∈ Dict.keys m ↔ n ∈ Dict.keys c.attrs) := by
    intro n hn
    rw [hk, ← Dict.get?_isSome_iff, ← Dict.get?_isSome_iff, classStrings_attr hg c hn]; simp
  obtain ⟨r, h1, h2⟩ := loadAttrs_ok m (fun n v => ∃ w, Dict.get? c.attrs n = some w ∧ SameAttr v (attrLoaded w)) types hg.1 (by
    intro n t l hm hgm
    have hn : n ∈ types.map Prod.fst := List.mem_map.2 ⟨_, hm, rfl⟩
    have : n ∈ Dict.keys c.attrs := (hkey n hn).1 ((Dict.get?_isSome_iff _ _).1 (by simp [hgm]))
    obtain ⟨w, hw⟩ := Option.isSome_iff_exists.1 ((Dict.get?_isSome_iff _ _).2 this)
    obtain ⟨t', ht', hok⟩ := h.2 n w (Dict.mem_of_get? hw)
    rw [mem_types_unique hg.1 ht' hm] at hok
    obtain ⟨b, hb1, hb2⟩ := loadAttr_saved (hg.2.1 n t hm) hok (hv _ _ _ hgm (by rw [classStrings_attr hg c hn, hw]; rfl))
    exact ⟨b, hb1, w, hw, hb2⟩) c0.attrs
  refine ⟨r, ?_, fun n => ?_⟩
  · have ev : loadVersion m = .ok c.version := by simp only [loadVersion, ha2, loadNum, pyInt_intStr]
    have ei : loadInterviewed m = true := by
      simp only [loadInterviewed, ha1, truthy]
      cases c.interviewed <;> decide
    simp only [setState, ev, ei, h1]
  · cases hw : Dict.get? c.attrs n with
    | none =>
      have hno : n ∉ Dict.keys c.attrs := (Dict.get?_eq_none_iff _ _).1 hw
      exact (h2 n).2 (fun hh => hno ((hkey n hh.1).1 hh.2))
    | some w =>
      have hin : n ∈ Dict.keys c.attrs := (Dict.get?_isSome_iff _ _).1 (by simp [hw])
      have hn := typed_name h hin
      obtain ⟨v, g1, w', g2, g3⟩ := (h2 n).1 hn ((hkey n hn).2 hin)
      rw [hw] at g2; cases g2
      exact ⟨v, g1, g3⟩

/-! ## Saved nodes have distinct keys -/

theorem distinct_strs (l : List L) (h : ∀ x ∈ l, ∃ s, x = .str s) : ∀ x ∈ l, Distinct x := by
  intro x hx
  obtain ⟨s, rfl⟩ := h x hx
  exact .str s

theorem distinct_leaf (v : Leaf) : Distinct (strings (leafState v)) := by
  cases v with
  | num n => exact .str _
  | text s => exact .str _
  | nodes l =>
    simp only [leafState, strings, stringsL_eq]
    refine .seq _ (distinct_strs _ fun x hx => ?_)
    simp only [List.mem_map] at hx
    obtain ⟨_, ⟨s, _, rfl⟩, rfl⟩ := hx
    exact ⟨s, rfl⟩
  | list l =>
    simp only [leafState, strings, stringsL_eq]
    refine .seq _ fun x hx => ?_
    simp only [List.mem_map] at hx
    obtain ⟨_, ⟨c, _, rfl⟩, rfl⟩ := hx
    obtain ⟨ss, h1, _⟩ := cells_strings c
    simp only [strings, stringsL_eq, h1]
    refine .seq _ (distinct_strs _ fun x hx => ?_)
    obtain ⟨s, _, rfl⟩ := List.mem_map.1 hx
    exact ⟨s, rfl⟩

theorem distinct_map {κ α : Type} (enc : κ → Str) (φ : α → L) (inj : ∀ a b, enc a = enc b → a = b) (d : Dict κ α) (h : (Dict.keys d).Nodup)
    (hv : ∀ k v, (k, v) ∈ d → Distinct (φ v)) : Distinct (.map (d.map fun p => (enc p.1, φ p.2))) := by
  refine .map _ (nodup_keys_map enc φ inj d h) fun k x hx => ?_
  obtain ⟨⟨k', v⟩, hp, he⟩ := List.mem_map.1 hx
  cases he
  exact hv k' v hp

theorem distinct_rec {fields : List (String × LeafTy)} {d : Dict String Leaf} (h : RecOk fields d) : Distinct (strings (recState d)) := by
  rw [recStrings]
  exact distinct_map String.toList (fun v => strings (leafState v)) toList_inj d h.1 fun _ v _ => distinct_leaf v

theorem distinct_attr {t : AttrTy} {a : Attr} (h : AttrOk t a) : Distinct (strings (attrState a)) := by
  have key : ∀ {β : Type} (st : β → Y) (d : Dict Int β), strings (.map (d.map fun p => (.num p.1, st p.2))) = .map (d.map fun p => (intStr p.1, strings (st p.2))) := by
    intro β st d; rw [strings_map, List.map_map]; rfl
  cases t <;> cases a <;> simp only [AttrOk] at h
  · exact distinct_leaf _
  · rename_i d
    rw [show attrState (.nums d) = .map (d.map fun p => (.num p.1, (fun n => Y.num n) p.2)) from rfl, key]
    exact distinct_map intStr (fun n => strings (.num n)) intStr_inj d h fun _ _ _ => .str _
  · rename_i fields d
    rw [show attrState (.recs d) = .map (d.map fun p => (.num p.1, recState p.2)) from rfl, key]
    exact distinct_map intStr (fun r => strings (recState r)) intStr_inj d h.1 fun k r hm => distinct_rec (h.2 k r hm)

theorem distinct_class {types : List (String × AttrTy)} (hg : GoodTypes types) {c : ClassState} (h : Typed types c.attrs) : Distinct (strings (classState c)) := by
  rw [strings_classState]
  have hno : ∀ s : String, s ∉ types.map Prod.fst → s.toList ∉ Dict.keys (c.attrs.map fun p => (p.1.toList, strings (attrState p.2))) := by
    intro s hs hm
    obtain ⟨k, hk, he⟩ := (mem_keys_map String.toList (fun a => strings (attrState a)) c.attrs s.toList).1 hm
    rw [toList_inj _ _ he] at hk
    exact hs (typed_name h hk)
  have hnd := nodup_keys_map String.toList (fun a => strings (attrState a)) toList_inj c.attrs h.1
  refine .map _ ?_ fun k x hx => ?_
  · rw [keys_eq, classStrings, List.map_append, List.nodup_append]
    refine ⟨hnd, by simp only [List.map_cons, List.map_nil]; decide, fun a ha b hb e => ?_⟩
    subst e
    simp only [List.map_cons, List.map_nil, List.mem_cons, List.not_mem_nil, or_false] at hb
    rcases hb with rfl | rfl
    · exact hno _ hg.2.2.1 ha
    · exact hno _ hg.2.2.2 ha
  · rcases List.mem_append.1 hx with hx | hx
    · obtain ⟨⟨n, a⟩, hp, he⟩ := List.mem_map.1 hx
      cases he
      obtain ⟨t, _, hok⟩ := h.2 n a hp
      exact distinct_attr hok
    · simp only [List.mem_cons, List.not_mem_nil, or_false, Prod.mk.injEq] at hx
      rcases hx with ⟨_, rfl⟩ | ⟨_, rfl⟩ <;> exact .str _

/-- The saved form of a node with all scalars as text. -/
theorem strings_save (node : Classes) :
    strings (save node) = .map [("supported".toList, .map (node.map fun p => (natStr p.1, strings (classState p.2))))] := by
  simp only [save, strings_map, List.map_cons, List.map_nil, List.map_map]
  rfl

theorem distinct_save {node : Classes} (h : NodeOk node) : Distinct (strings (save node)) := by
  rw [strings_save]
  refine .map _ (by simp [Dict.keys]) fun k x hx => ?_
  simp only [List.mem_cons, List.not_mem_nil, or_false, Prod.mk.injEq] at hx
  rw [hx.2]
  exact distinct_map natStr (fun c => strings (classState c)) natStr_inj node h.1 fun id c hm => distinct_class (good_attrsOf id) (h.2 id c hm)

/-! ## Restoring -/

/-- One command class of a node that is restored. -/
def restored (sup : Dict Str L) (id : Nat) (c : ClassState) : ClassState :=
  match Dict.get? sup (natStr id) with
  | none => c
  | some l => (setState (attrsOf id) c l).1

theorem restore_ok (sup : Dict Str L) (node : Classes) (h : ∀ id c l, (id, c) ∈ node → Dict.get? sup (natStr id) = some l → (setState (attrsOf id) c l).2 = .ok ()) :
    restore sup node = (node.map fun p => (p.1, restored sup p.1 p.2), .ok ()) := by
  induction node with
  | nil => rfl
  | cons p node ih =>
    obtain ⟨id, c⟩ := p
    have ih := ih fun id c l hm => h id c l (List.mem_cons_of_mem _ hm)
    simp only [restore, List.map_cons, restored]
    cases hg : Dict.get? sup (natStr id) with
    | none => simp only [ih, restored]
    | some l =>
      have := h id c l (by simp) hg
      simp only
      split
      · rename_i h'; rw [h'] at this; cases this
      · rename_i h'; simp only [h', ih, restored]

theorem get?_restored (sup : Dict Str L) (node : Classes) (id : Nat) :
    Dict.get? (node.map fun p => (p.1, restored sup p.1 p.2)) id = (Dict.get? node id).map (restored sup id) := by
  induction node with
  | nil => rfl
  | cons p node ih =>
    obtain ⟨a, c⟩ := p
    simp only [List.map_cons, Dict.get?]
    split
    · rename_i h; subst h; rfl
    · exact ih

/-- Loading what was saved: every command class that was saved gets its version, the interviewed mark and its attributes; the others are unchanged. -/
theorem load_file (lib : Yaml) (fs : Files lib) (nodeId : Str) {node : Classes} (h : NodeOk node) (hfile : Dict.get? fs (pathFor nodeId) = some (lib.dump (save node)))
    (fresh : Classes) :
    ∃ r, nodeAdded lib fs nodeId fresh = (r, .ok ()) ∧ Dict.keys r = Dict.keys fresh ∧ ∀ id c0, Dict.get? fresh id = some c0 →
      match Dict.get? node id with
      | none => Dict.get? r id = some c0
      | some c => ∃ a, Dict.get? r id = some ⟨c.version, true, a⟩ ∧ ∀ n, match Dict.get? c.attrs n with
          | none => Dict.get? a n = Dict.get? c0.attrs n
          | some w => ∃ v, Dict.get? a n = some v ∧ SameAttr v (attrLoaded w) := by
  obtain ⟨l, hl, hs⟩ := lib.load_dump (save node) (distinct_save h)
  rw [strings_save] at hs
  obtain ⟨m, rfl, _, hk, hv⟩ := same_map hs
  have hin : "supported".toList ∈ Dict.keys m := (hk _).2 (by simp [Dict.keys])
  obtain ⟨l1, hl1⟩ := Option.isSome_iff_exists.1 ((Dict.get?_isSome_iff _ _).2 hin)
  have hs1 := hv _ _ _ hl1 (show Dict.get? [("supported".toList, L.map (node.map fun p => (natStr p.1, strings (classState p.2))))] "supported".toList = some _ by simp [Dict.get?]; rfl)
  obtain ⟨sup, rfl, _, hk2, hv2⟩ := same_map hs1
  have hget := get?_map natStr (fun c => strings (classState c)) natStr_inj node
  have hsup : ∀ id l, Dict.get? sup (natStr id) = some l → ∃ c, Dict.get? node id = some c ∧ Same l (strings (classState c)) := by
    intro id l hg
    obtain ⟨b, hb⟩ := Same.get hk2 hg
    have := hb
    rw [hget id] at this
    cases hc : Dict.get? node id with
    | none => rw [hc] at this; cases this
    | some c => rw [hc] at this; cases this; exact ⟨c, rfl, hv2 _ _ _ hg hb⟩
  have hsup' : ∀ id c, Dict.get? node id = some c → ∃ l, Dict.get? sup (natStr id) = some l := by
    intro id c hc
    have : natStr id ∈ Dict.keys sup := (hk2 _).2 ((Dict.get?_isSome_iff _ _).1 (by rw [hget id, hc]; rfl))
    exact Option.isSome_iff_exists.1 ((Dict.get?_isSome_iff _ _).2 this)
  have step : ∀ id c0 l, Dict.get? sup (natStr id) = some l → ∃ c a, Dict.get? node id = some c ∧ setState (attrsOf id) c0 l = (⟨c.version, true, a⟩, .ok ()) ∧
      ∀ n, match Dict.get? c.attrs n with
        | none => Dict.get? a n = Dict.get? c0.attrs n
        | some w => ∃ v, Dict.get? a n = some v ∧ SameAttr v (attrLoaded w) := by
    intro id c0 l hg
    obtain ⟨c, hc, hsc⟩ := hsup id l hg
    obtain ⟨a, h1, h2⟩ := setState_loaded (good_attrsOf id) (h.2 id c (Dict.mem_of_get? hc)) c0 hsc
    exact ⟨c, a, hc, h1, h2⟩
  refine ⟨fresh.map fun p => (p.1, restored sup p.1 p.2), ?_, by simp [keys_eq, List.map_map], fun id c0 hc0 => ?_⟩
  · have hr := restore_ok sup fresh (fun id c0 l hm hg => by
      obtain ⟨c, a, _, h1, _⟩ := step id c0 l hg
      rw [h1])
    simp only [nodeAdded, hfile, hl, hl1, hr]
  · rw [get?_restored, hc0]
    cases hc : Dict.get? node id with
    | none =>
      cases hg : Dict.get? sup (natStr id) with
      | none => simp [restored, hg]
      | some l => obtain ⟨c, hc', _⟩ := hsup id l hg; rw [hc] at hc'; cases hc'
    | some c =>
      obtain ⟨l, hg⟩ := hsup' id c hc
      obtain ⟨c', a, hc', h1, h2⟩ := step id c0 l hg
      rw [hc] at hc'; cases hc'
      exact ⟨a, by simp [restored, hg, h1], h2⟩

theorem load_saved (lib : Yaml) (fs : Files lib) (nodeId : Str) {node fresh : Classes} (h : NodeOk node) (hf : Fresh fresh) :
    ∃ r, nodeAdded lib (nodeUpdated lib fs nodeId node) nodeId fresh = (r, .ok ()) ∧ Dict.keys r = Dict.keys fresh ∧ ∀ id c0, Dict.get? fresh id = some c0 →
      match Dict.get? node id with
      | none => Dict.get? r id = some c0
      | some c => ∃ a, Dict.get? r id = some ⟨c.version, true, a⟩ ∧ SameAttrs a (attrsLoaded c.attrs) := by
  obtain ⟨r, h1, h2, h3⟩ := load_file lib (nodeUpdated lib fs nodeId node) nodeId h (by simp [nodeUpdated]) fresh
  refine ⟨r, h1, h2, fun id c0 hc0 => ?_⟩
  have := h3 id c0 hc0
  cases hc : Dict.get? node id with
  | none => rw [hc] at this; exact this
  | some c =>
    rw [hc] at this
    obtain ⟨a, g1, g2⟩ := this
    refine ⟨a, g1, fun n => ?_⟩
    have e : Dict.get? (attrsLoaded c.attrs) n = (Dict.get? c.attrs n).map attrLoaded := get?_map (fun n : String => n) attrLoaded (fun _ _ e => e) c.attrs n
    have := g2 n
    rw [e]
    cases hw : Dict.get? c.attrs n with
    | none =>
      rw [hw] at this
      simp only [hf id c0 (Dict.mem_of_get? hc0)] at this
      rw [this]; trivial
    | some w =>
      rw [hw] at this
      obtain ⟨v, k1, k3⟩ := this
      rw [k1]; exact k3

/-! ## What loading leaves alone -/

/-- No attribute is a list. -/
def NoLists (types : List (String × AttrTy)) : Prop :=
  ∀ n t, (n, t) ∈ types → match t with
    | .leaf t => t ≠ .list
    | .nums => True
    | .recs fields => ∀ m t, (m, t) ∈ fields → t ≠ .list

def noListsB (types : List (String × AttrTy)) : Bool := types.all fun p => match p.2 with
  | .leaf t => t ≠ .list
  | .nums => true
  | .recs fields => fields.all fun q => q.2 ≠ .list

theorem noLists_of (types : List (String × AttrTy)) (h : noListsB types = true) : NoLists types := by
  intro n t hm
  have := List.all_eq_true.1 h _ hm
  cases t with
  | leaf t => simpa using this
  | nums => trivial
  | recs fields =>
    intro m t hm'
    have := List.all_eq_true.1 this _ hm'
    simpa using this

theorem noLists_attrsOf {id : Nat} (h : id ≠ 0x59) : NoLists (attrsOf id) := by
  apply noLists_of
  unfold attrsOf
  repeat' split
  all_goals first
    | contradiction
    | decide

theorem leafLoaded_eq {t : LeafTy} (ht : t ≠ .list) {v : Leaf} (h : LeafOk t v) : leafLoaded v = v := by
  cases t <;> cases v <;> simp_all [LeafOk, leafLoaded]

theorem map_id_of {κ α : Type} (d : Dict κ α) (f : α → α) (h : ∀ k v, (k, v) ∈ d → f v = v) : (d.map fun p => (p.1, f p.2)) = d := by
  conv => rhs; rw [← List.map_id d]
  apply List.map_congr_left
  rintro ⟨k, v⟩ hp
  simp [h k v hp]

theorem attrsLoaded_eq {types : List (String × AttrTy)} (hl : NoLists types) {d : Dict String Attr} (h : Typed types d) : attrsLoaded d = d := by
  apply map_id_of
  intro n a hm
  obtain ⟨t, ht, hok⟩ := h.2 n a hm
  have hno := hl n t ht
  cases t <;> cases a <;> simp only [AttrOk] at hok
  · exact congrArg Attr.leaf (leafLoaded_eq hno hok)
  · rfl
  · rename_i fields d
    refine congrArg Attr.recs (map_id_of d recLoaded ?_)
    intro k r hr
    apply map_id_of
    intro m v hv
    obtain ⟨t, ht, hok⟩ := (hok.2 k r hr).2 m v hv
    exact leafLoaded_eq (hno m t ht) hok

/-- The attributes of association group information. -/
def agiFields : List (String × LeafTy) := [("name", .text), ("profile", .num), ("commands", .list)]

theorem agi_groups {d : Dict String Attr} (h : Typed (attrsOf 0x59) d) {groups : Dict Int (Dict String Leaf)} (hg : Dict.get? d "groupings" = some (.recs groups)) :
    (Dict.keys groups).Nodup ∧ ∀ k r, (k, r) ∈ groups → RecOk agiFields r := by
  obtain ⟨t, ht, hok⟩ := h.2 _ _ (Dict.mem_of_get? hg)
  have : t = .recs agiFields := by
    have : attrsOf 0x59 = [("groupings", .recs agiFields)] := rfl
    rw [this] at ht
    simp only [List.mem_cons, List.not_mem_nil, or_false, Prod.mk.injEq] at ht
    exact ht.2
  subst this
  exact hok

theorem agi_name {g : Dict String Leaf} (h : RecOk agiFields g) {v : Leaf} (hv : Dict.get? g "name" = some v) : leafLoaded v = v := by
  obtain ⟨t, ht, hok⟩ := h.2 _ _ (Dict.mem_of_get? hv)
  simp [agiFields] at ht
  exact leafLoaded_eq (by simp [ht]) hok

theorem agi_profile {g : Dict String Leaf} (h : RecOk agiFields g) {v : Leaf} (hv : Dict.get? g "profile" = some v) : leafLoaded v = v := by
  obtain ⟨t, ht, hok⟩ := h.2 _ _ (Dict.mem_of_get? hv)
  simp [agiFields] at ht
  exact leafLoaded_eq (by simp [ht]) hok

theorem pathFor_ne {a b : Str} (h : a ≠ b) : pathFor a ≠ pathFor b := fun e => h (List.append_cancel_right e)

end Model.Storage

import Verif.Lemmas.Stream
import Verif.Lemmas.Dict
import Verif.Model.Codec
import Verif.Spec.Bridge
/-! Helper lemmas: composing a field list produces the bits of its slots. -/
namespace Model
open Spec

/-- The specification slot of a declared attribute. -/
def slotOf (f : Field) : Option Slot :=
  match f.ty with
  | .uint n => some (.num f.name (8 * n))
  | .ubits n => some (.num f.name n)
  | .bits n => some (.num f.name n)
  | .flag => some (.flag f.name)
  | .reserved n => some (.zero n)
  | .dsk => some (.dsk f.name)
  | .ipv6 => some (.ipv6 f.name)
  | .bytes => some (.rest f.name)
  | .nodes => some (.nodes f.name)
  | _ => none

/-- number of bits of a sub-byte type -/
def subBits : FT → Option Nat
  | .ubits n => some n
  | .bits n => some n
  | .flag => some 1
  | .reserved n => some n
  | _ => none

def isRes : FT → Bool
  | .reserved _ => true
  | _ => false

def nextOff (off : Nat) (t : FT) : Nat :=
  match subBits t with
  | some n => (off + n) % 8
  | none => 0

def alignOk (off : Nat) (t : FT) : Bool :=
  match subBits t with
  | some n => 0 < n && off + n ≤ 8
  | none => off == 0

def aligned : Nat → List Field → Bool
  | _, [] => true
  | off, f :: fs => alignOk off f.ty && aligned (nextOff off f.ty) fs

/-- What the constructor stores for a declared attribute. -/
def attrVal (f : Field) (a : Args) : Option Val :=
  match a f.name with
  | none => none
  | some x => (coerceInit f.ty (argVal x)).toOption

theorem replicate_false (n : Nat) : List.replicate n false = toBits n 0 := by
  induction n with
  | zero => rfl
  | succ n ih => rw [toBits_succ, List.replicate_succ, ih]; simp

theorem toBits_one (v : Int) : toBits 1 (v % 2).toNat = [v % 2 == 1] := by
  have : v % 2 = 0 ∨ v % 2 = 1 := by omega
  rcases this with h | h <;> rw [h] <;> rfl

/-! ### association nodes -/

theorem asByte_ok {n : Nat} (h : n < 256) : asByte n = .ok (UInt8.ofNat n) := by simp [asByte, h]

theorem serNodesPlain_ok (l : List (Nat × Option Nat)) (h : nodesFit l = true) :
    serNodesPlain l = .ok ((plainTargets l).map UInt8.ofNat) := by
  induction l with
  | nil => rfl
  | cons p l ih =>
    obtain ⟨n, e⟩ := p
    simp only [nodesFit, List.all_cons, Bool.and_eq_true, decide_eq_true_eq] at h
    have ih := ih (by simpa [nodesFit] using h.2)
    cases e with
    | none => simp [serNodesPlain, plainTargets, asByte_ok h.1.1, ih, bind, Except.bind, pure, Except.pure]
    | some e => simp [serNodesPlain, plainTargets, ih]

theorem serNodesMulti_ok (l : List (Nat × Option Nat)) (h : nodesFit l = true) :
    serNodesMulti l = .ok (((pointTargets l).flatMap fun (n, e) => [n, e]).map UInt8.ofNat) := by
  induction l with
  | nil => rfl
  | cons p l ih =>
    obtain ⟨n, e⟩ := p
    simp only [nodesFit, List.all_cons, Bool.and_eq_true, decide_eq_true_eq] at h
    have ih := ih (by simpa [nodesFit] using h.2)
    cases e with
    | none => simp [serNodesMulti, pointTargets, ih]
    | some e =>
      have he : e < 256 := by simpa using h.1.2
      simp [serNodesMulti, pointTargets, asByte_ok h.1.1, asByte_ok he, ih, bind, Except.bind, pure, Except.pure]

theorem any_multi (l : List (Nat × Option Nat)) :
    l.any (fun p => p.2.isSome) = true ↔ pointTargets l ≠ [] := by
  induction l with
  | nil => simp [pointTargets]
  | cons p l ih =>
    obtain ⟨n, e⟩ := p
    cases e with
    | none => rw [List.any_cons, pointTargets, ← ih]; simp
    | some e => simp [pointTargets]

theorem serNodes_ok (l : List (Nat × Option Nat)) (h : nodesFit l = true) :
    serNodes l = .ok ((nodesWire l).map UInt8.ofNat) := by
  unfold serNodes
  rw [serNodesPlain_ok l h, serNodesMulti_ok l h]
  simp only [bind, Except.bind, pure, Except.pure, nodesWire]
  by_cases hh : pointTargets l = []
  · rw [if_neg (fun h => (any_multi l).1 h hh), if_pos hh]
    simp
  · rw [if_pos ((any_multi l).2 hh), if_neg hh]
    simp

theorem nodesWire_lt (l : List (Nat × Option Nat)) (h : nodesFit l = true) : ∀ x ∈ nodesWire l, x < 256 := by
  induction l with
  | nil => simp [nodesWire, plainTargets, pointTargets]
  | cons p l ih =>
    obtain ⟨n, e⟩ := p
    simp only [nodesFit, List.all_cons, Bool.and_eq_true, decide_eq_true_eq] at h
    have ih := ih (by simpa [nodesFit] using h.2)
    have ih1 : ∀ x ∈ plainTargets l, x < 256 := fun x hx => ih x (by simp [nodesWire, hx])
    have ih2 : ∀ p ∈ pointTargets l, p.1 < 256 ∧ p.2 < 256 := by
      intro p hp
      have hne : pointTargets l ≠ [] := fun h => by simp [h] at hp
      have hm : ∀ x ∈ [p.1, p.2], x < 256 := fun x hx => ih x (by
        simp only [nodesWire, List.mem_append]; right
        rw [if_neg hne]
        exact List.mem_cons_of_mem _ (List.mem_flatMap.mpr ⟨p, hp, hx⟩))
      exact ⟨hm _ (by simp), hm _ (by simp)⟩
    intro x hx
    cases e with
    | none =>
      simp only [nodesWire, plainTargets, pointTargets, List.cons_append, List.mem_cons] at hx
      rcases hx with rfl | hx
      · exact h.1.1
      · exact ih x hx
    | some e =>
      have he : e < 256 := by simpa using h.1.2
      simp only [nodesWire, plainTargets, pointTargets, List.mem_append, reduceCtorEq, if_false, List.mem_cons,
        List.mem_flatMap] at hx
      rcases hx with hx | hx | ⟨p, hp, hx⟩
      · exact ih1 x hx
      · omega
      · have : x = p.1 ∨ x = p.2 := by simpa using hx
        rcases hp with rfl | hp
        · rcases this with rfl | rfl
          · exact h.1.1
          · exact he
        · have := ih2 p hp; omega

theorem bitsOf_map_ofNat (l : List Nat) (h : ∀ x ∈ l, x < 256) :
    bitsOf (l.map UInt8.ofNat) = l.flatMap (toBits 8) := by
  induction l with
  | nil => rfl
  | cons x l ih =>
    have hx := h x (by simp)
    rw [List.map_cons, bitsOf_cons, ih (fun y hy => h y (by simp [hy])), List.flatMap_cons]
    congr 1
    simp [Nat.mod_eq_of_lt hx]

/-! ### one field -/

theorem addBits_int {w : Writer} {v : Int} {n : Nat} (hw : w.Ok) (hn : 0 < n) (h8 : w.start + n ≤ 8)
    (h0 : 0 ≤ v) (hv : v < 2 ^ n) :
    ∃ w', w.addBits v n = .ok w' ∧ w'.Ok ∧ w'.bits = w.bits ++ toBits n v.toNat ∧ w'.start = (w.start + n) % 8 := by
  obtain ⟨k, rfl⟩ := Int.eq_ofNat_of_zero_le h0
  have : k < 2 ^ n := by exact_mod_cast hv
  simpa using Writer.addBits_ok hw hn h8 this

theorem addBytes_uint {w : Writer} {v : Int} {n : Nat} (hs : w.start = 0) (h0 : 0 ≤ v) (hv : v < 2 ^ (8 * n)) :
    ∃ w', w.addBytes v n false = .ok w' ∧ w'.Ok ∧ w'.bits = w.bits ++ toBits (8 * n) v.toNat ∧ w'.start = 0 := by
  obtain ⟨w', e, ok, b, s⟩ := Writer.addBytes_ok (w := w) (v := v) (n := n) (s := false) hs
    (b := natToBE n v.toNat) (by simp [toBytesBE, h0, hv])
  refine ⟨w', e, ok, ?_, s⟩
  rw [b, toBitsZ, Int.emod_eq_of_lt h0 hv]

theorem composeField_ok {f : Field} {s : Slot} {a : Args} {bits : List Bool} {attrs : Dict String Val}
    {cmd : Option (Py Bytes)} {w : Writer} (hs : slotOf f = some s) (hc : f.compose = none) (hb : s.wire a = some bits)
    (hres : isRes f.ty = true → a f.name = none)
    (hA : Dict.get? attrs f.name = attrVal f a) (hw : w.Ok) (hal : alignOk w.start f.ty = true) :
    ∃ w', composeField attrs cmd f w = .ok w' ∧ w'.Ok ∧ w'.bits = w.bits ++ bits ∧ w'.start = nextOff w.start f.ty := by
  obtain ⟨name, ty, ph, ch⟩ := f
  simp only at hc hA hal hres
  subst hc
  cases ty <;> simp only [slotOf, Option.some.injEq, reduceCtorEq] at hs <;> subst hs <;>
    simp only [Slot.wire] at hb
  case uint n =>
    split at hb
    · rename_i v hv
      split at hb
      · rename_i hr
        cases hb
        have hst : w.start = 0 := by simpa [alignOk, subBits] using hal
        obtain ⟨w', e, ok, b, s⟩ := addBytes_uint (w := w) hst hr.1 hr.2
        refine ⟨w', ?_, ok, b, by simpa [nextOff, subBits] using s⟩
        simp [composeField, hA, attrVal, hv, argVal, coerceInit, Except.toOption, serVal, e]
      · cases hb
    · cases hb
  case ubits n =>
    split at hb
    · rename_i v hv
      split at hb
      · rename_i hr
        cases hb
        simp only [alignOk, subBits, Bool.and_eq_true, decide_eq_true_eq] at hal
        obtain ⟨w', e, ok, b, s⟩ := addBits_int (w := w) hw hal.1 hal.2 hr.1 hr.2
        refine ⟨w', ?_, ok, b, by simpa [nextOff, subBits] using s⟩
        simp [composeField, hA, attrVal, hv, argVal, coerceInit, Except.toOption, serVal, e]
      · cases hb
    · cases hb
  case bits n =>
    split at hb
    · rename_i v hv
      split at hb
      · rename_i hr
        cases hb
        simp only [alignOk, subBits, Bool.and_eq_true, decide_eq_true_eq] at hal
        obtain ⟨w', e, ok, b, s⟩ := addBits_int (w := w) hw hal.1 hal.2 hr.1 hr.2
        refine ⟨w', ?_, ok, b, by simpa [nextOff, subBits] using s⟩
        simp [composeField, hA, attrVal, hv, argVal, coerceInit, Except.toOption, serVal, e]
      · cases hb
    · cases hb
  case flag =>
    split at hb
    · rename_i v hv
      cases hb
      simp only [alignOk, subBits, Bool.and_eq_true, decide_eq_true_eq] at hal
      obtain ⟨w', e, ok, b, s⟩ := addBits_int (w := w) (v := v % 2) (n := 1) hw hal.1 hal.2 (by omega) (by omega)
      refine ⟨w', ?_, ok, by rw [b, toBits_one], by simpa [nextOff, subBits] using s⟩
      simp [composeField, hA, attrVal, hv, argVal, coerceInit, Except.toOption, serVal, e]
    · cases hb
  case reserved n =>
    cases hb
    have hn : a name = none := hres rfl
    simp only [alignOk, subBits, Bool.and_eq_true, decide_eq_true_eq] at hal
    obtain ⟨w', e, ok, b, s⟩ := addBits_int (w := w) (v := 0) (n := n) hw hal.1 hal.2 (by omega)
      (Int.pow_pos (by omega))
    refine ⟨w', ?_, ok, by rw [b, replicate_false]; rfl, by simpa [nextOff, subBits] using s⟩
    simp [composeField, hA, attrVal, hn, defaultVal, serVal, e]
  case bytes =>
    have hst : w.start = 0 := by simpa [alignOk, subBits] using hal
    split at hb
    · rename_i v hv
      cases hb
      obtain ⟨ok, b, s⟩ := Writer.extend_ok (w := w) (b := v) hst
      refine ⟨_, ?_, ok, b, by simpa [nextOff, subBits] using s⟩
      simp [composeField, hA, attrVal, hv, argVal, coerceInit, Except.toOption, serVal]
    · rename_i hv
      cases hb
      obtain ⟨ok, b, s⟩ := Writer.extend_ok (w := w) (b := []) hst
      refine ⟨_, ?_, ok, b, by simpa [nextOff, subBits] using s⟩
      simp [composeField, hA, attrVal, hv, defaultVal, serVal]
    · cases hb
  case dsk =>
    have hst : w.start = 0 := by simpa [alignOk, subBits] using hal
    split at hb
    · rename_i v hv
      split at hb
      · rename_i hl
        cases hb
        obtain ⟨ok, b, s⟩ := Writer.extend_ok (w := w) (b := v) hst
        refine ⟨_, ?_, ok, b, by simpa [nextOff, subBits] using s⟩
        have hci : coerceInit .dsk (.bytes v) = .ok (.dsk v) := by simp only [coerceInit]; rw [if_pos hl]
        simp [composeField, hA, attrVal, hv, argVal, hci, Except.toOption, serVal]
      · cases hb
    · cases hb
  case ipv6 =>
    have hst : w.start = 0 := by simpa [alignOk, subBits] using hal
    split at hb
    · rename_i v hv
      split at hb
      · rename_i hl
        cases hb
        obtain ⟨ok, b, s⟩ := Writer.extend_ok (w := w) (b := v) hst
        refine ⟨_, ?_, ok, b, by simpa [nextOff, subBits] using s⟩
        simp [composeField, hA, attrVal, hv, argVal, coerceInit, Except.toOption, serVal, hl]
      · cases hb
    · cases hb
  case nodes =>
    have hst : w.start = 0 := by simpa [alignOk, subBits] using hal
    split at hb
    · rename_i l hv
      split at hb
      · rename_i hl
        cases hb
        obtain ⟨ok, b, s⟩ := Writer.extend_ok (w := w) (b := (nodesWire l).map UInt8.ofNat) hst
        refine ⟨_, ?_, ok, by rw [b, bitsOf_map_ofNat _ (nodesWire_lt l hl)], by simpa [nextOff, subBits] using s⟩
        simp [composeField, hA, attrVal, hv, argVal, coerceInit, Except.toOption, serVal, serNodes_ok l hl,
          bind, Except.bind, pure, Except.pure]
      · cases hb
    · rename_i hv
      cases hb
      obtain ⟨ok, b, s⟩ := Writer.extend_ok (w := w) (b := []) hst
      refine ⟨_, ?_, ok, b, by simpa [nextOff, subBits] using s⟩
      simp [composeField, hA, attrVal, hv, defaultVal, serVal, serNodes, serNodesPlain, bind, Except.bind, pure, Except.pure]
    · cases hb

/-- the slots of a field list -/
def slotsOf : List Field → Option (List Slot)
  | [] => some []
  | f :: fs => match slotOf f, slotsOf fs with
    | some s, some ss => some (s :: ss)
    | _, _ => none

theorem composeFields_ok {fs : List Field} {ss : List Slot} {a : Args} {bits : List Bool}
    {attrs : Dict String Val} {cmd : Option (Py Bytes)} {w : Writer}
    (hs : slotsOf fs = some ss) (hc : ∀ f ∈ fs, f.compose = none) (hb : slotsWire a ss = some bits)
    (hres : ∀ f ∈ fs, isRes f.ty = true → a f.name = none)
    (hA : ∀ f ∈ fs, Dict.get? attrs f.name = attrVal f a) (hw : w.Ok) (hal : aligned w.start fs = true) :
    ∃ w', composeFields attrs cmd fs w = .ok w' ∧ w'.Ok ∧ w'.bits = w.bits ++ bits ∧
      w'.start = fs.foldl (fun o f => nextOff o f.ty) w.start := by
  induction fs generalizing ss bits w with
  | nil =>
    simp only [slotsOf, Option.some.injEq] at hs
    subst hs
    simp only [slotsWire, Option.some.injEq] at hb
    subst hb
    exact ⟨w, rfl, hw, by simp, rfl⟩
  | cons f fs ih =>
    simp only [slotsOf] at hs
    split at hs
    · rename_i s ss' h1 h2
      cases hs
      simp only [slotsWire] at hb
      split at hb
      · rename_i x y hx hy
        cases hb
        simp only [aligned, Bool.and_eq_true] at hal
        obtain ⟨w1, e1, ok1, b1, s1⟩ := composeField_ok (cmd := cmd) h1 (hc f (by simp)) hx (hres f (by simp)) (hA f (by simp)) hw hal.1
        obtain ⟨w2, e2, ok2, b2, s2⟩ := ih h2 (fun g hg => hc g (by simp [hg])) hy (fun g hg => hres g (by simp [hg]))
          (fun g hg => hA g (by simp [hg])) ok1 (by rw [s1]; exact hal.2)
        refine ⟨w2, ?_, ok2, by rw [b2, b1]; simp, by rw [s2, s1]; rfl⟩
        simp [composeFields, e1, e2, bind, Except.bind]
      · cases hb
    · cases hs

/-- A slot with a value can be stored: the constructor accepts it. -/
theorem coerceInit_ok {f : Field} {s : Slot} {a : Args} {bits : List Bool} {x : Arg}
    (hs : slotOf f = some s) (hb : s.wire a = some bits) (hx : a f.name = some x) (hres : isRes f.ty = false) :
    ∃ v, coerceInit f.ty (argVal x) = .ok v := by
  obtain ⟨name, ty, ph, ch⟩ := f
  simp only at hx hres ⊢
  cases ty <;> simp only [slotOf, Option.some.injEq, reduceCtorEq] at hs <;> subst hs <;>
    simp only [Slot.wire, hx] at hb <;>
    (try (cases x <;> simp only [reduceCtorEq] at hb)) <;>
    (try (split at hb)) <;> (try cases hb) <;> simp_all [argVal, coerceInit, isRes]

def resNames (fs : List Field) : List String := (fs.filter (fun f => isRes f.ty)).map Field.name

/-- names of the attributes that are not reserved bits -/
def valNames (fs : List Field) : List String := (fs.filter (fun f => !isRes f.ty)).map Field.name

theorem initAttrs_gen {fs : List Field} {a : Args} {acc : Dict String Val}
    (hco : ∀ f ∈ fs, ∀ x, a f.name = some x → ∃ v, coerceInit f.ty (argVal x) = .ok v)
    (hres : ∀ f ∈ fs, isRes f.ty = true → a f.name = none)
    (hnd : (valNames fs).Nodup) :
    ∃ attrs, initAttrs (argKw a) fs acc = .ok attrs ∧
      (∀ f ∈ fs, isRes f.ty = false → Dict.get? attrs f.name = match a f.name with
        | none => Dict.get? acc f.name | some _ => attrVal f a) ∧
      (∀ n, (n ∉ valNames fs ∨ a n = none) → Dict.get? attrs n = Dict.get? acc n) := by
  induction fs generalizing acc with
  | nil => exact ⟨acc, rfl, by simp, by simp⟩
  | cons f fs ih =>
    have hnd' : (valNames fs).Nodup := by
      unfold valNames at hnd ⊢
      rw [List.filter_cons] at hnd
      split at hnd
      · exact (List.nodup_cons.mp hnd).2
      · exact hnd
    cases hax : a f.name with
    | none =>
      obtain ⟨attrs, e, hA, hB⟩ := ih (acc := acc) (fun g hg => hco g (by simp [hg])) (fun g hg => hres g (by simp [hg])) hnd'
      refine ⟨attrs, by simp [initAttrs, argKw, hax, e], ?_, ?_⟩
      · intro g hg hgr
        rcases List.mem_cons.mp hg with rfl | hg
        · simp only [hax]; exact hB _ (Or.inr hax)
        · exact hA g hg hgr
      · intro n hn
        rcases hn with hn | hn
        · apply hB; left
          intro hc; apply hn
          unfold valNames at hc ⊢
          rw [List.filter_cons]; split
          · exact List.mem_cons_of_mem _ hc
          · exact hc
        · exact hB n (Or.inr hn)
    | some z =>
      have hr : isRes f.ty = false := by
        cases hh : isRes f.ty with
        | false => rfl
        | true => rw [hres f (by simp) hh] at hax; cases hax
      obtain ⟨v, hv⟩ := hco f (by simp) z hax
      have hfn : f.name ∉ valNames fs := by
        unfold valNames at hnd ⊢
        rw [List.filter_cons, if_pos (by simp [hr]), List.map_cons] at hnd
        exact (List.nodup_cons.mp hnd).1
      obtain ⟨attrs, e, hA, hB⟩ := ih (acc := Dict.set acc f.name v) (fun g hg => hco g (by simp [hg])) (fun g hg => hres g (by simp [hg])) hnd'
      refine ⟨attrs, by simp [initAttrs, argKw, hax, hv, bind, Except.bind, e], ?_, ?_⟩
      · intro g hg hgr
        rcases List.mem_cons.mp hg with rfl | hg
        · rw [hB _ (Or.inl hfn)]
          simp [hax, attrVal, hv, Except.toOption]
        · rw [hA g hg hgr]
          have hne : f.name ≠ g.name := by
            intro hne; apply hfn; rw [hne]
            unfold valNames
            exact List.mem_map.mpr ⟨g, List.mem_filter.mpr ⟨hg, by simp [hgr]⟩, rfl⟩
          split
          · rw [Dict.get?_set_ne _ _ hne]
          · rfl
      · intro n hn
        have hne : f.name ≠ n := by
          intro hne; subst hne
          rcases hn with hn | hn
          · apply hn; unfold valNames; rw [List.filter_cons, if_pos (by simp [hr])]; simp
          · rw [hax] at hn; cases hn
        rw [hB n ?_, Dict.get?_set_ne _ _ hne]
        rcases hn with hn | hn
        · left; intro hc; apply hn; unfold valNames; rw [List.filter_cons, if_pos (by simp [hr])]
          exact List.mem_cons_of_mem _ hc
        · exact Or.inr hn

theorem slotsOf_coerce {fs : List Field} {ss : List Slot} {a : Args} {bits : List Bool}
    (hs : slotsOf fs = some ss) (hb : slotsWire a ss = some bits)
    (hres : ∀ f ∈ fs, isRes f.ty = true → a f.name = none) :
    ∀ f ∈ fs, ∀ x, a f.name = some x → ∃ v, coerceInit f.ty (argVal x) = .ok v := by
  induction fs generalizing ss bits with
  | nil => simp
  | cons f fs ih =>
    simp only [slotsOf] at hs
    split at hs
    · rename_i s ss' h1 h2
      cases hs
      simp only [slotsWire] at hb
      split at hb
      · rename_i x y hx hy
        cases hb
        intro g hg z hz
        rcases List.mem_cons.mp hg with rfl | hg
        · apply coerceInit_ok h1 hx hz
          cases hh : isRes g.ty with
          | false => rfl
          | true => rw [hres g (by simp) hh] at hz; cases hz
        · exact ih h2 hy (fun k hk => hres k (by simp [hk])) g hg z hz
      · cases hb
    · cases hs

theorem initAttrs_ok {fs : List Field} {ss : List Slot} {a : Args} {bits : List Bool} {acc : Dict String Val}
    (hs : slotsOf fs = some ss) (hb : slotsWire a ss = some bits)
    (hres : ∀ f ∈ fs, isRes f.ty = true → a f.name = none)
    (hnd : (valNames fs).Nodup) :
    ∃ attrs, initAttrs (argKw a) fs acc = .ok attrs ∧
      (∀ f ∈ fs, isRes f.ty = false → Dict.get? attrs f.name = match a f.name with
        | none => Dict.get? acc f.name | some _ => attrVal f a) ∧
      (∀ n, (n ∉ valNames fs ∨ a n = none) → Dict.get? attrs n = Dict.get? acc n) :=
  initAttrs_gen (slotsOf_coerce hs hb hres) hres hnd

/-- What is checked once for every message class (by evaluation). -/
def staticOk (d : MsgDef) : Bool :=
  decide (d.cc < 256) && decide (d.cmd < 256) && aligned 0 d.fields &&
  d.fields.all (fun f => f.compose.isNone) && decide ((valNames d.fields).Nodup) &&
  decide (∀ n ∈ resNames d.fields, n ∉ valNames d.fields) &&
  (d.fields.foldl (fun o f => nextOff o f.ty) 0 == 0)

theorem construct_compose {d : MsgDef} {ss : List Slot} {a : Args} {bits : List Bool} {cmd : Option (Py Bytes)}
    (hd : staticOk d = true) (hs : slotsOf d.fields = some ss) (hb : slotsWire a ss = some bits)
    (hres : ∀ n ∈ resNames d.fields, a n = none) :
    ∃ attrs b, initAttrs (argKw a) d.fields [] = .ok attrs ∧ composeDef d attrs cmd = .ok b ∧
      bitsOf b = toBits 8 d.cc ++ toBits 8 d.cmd ++ bits := by
  simp only [staticOk, Bool.and_eq_true, decide_eq_true_eq, List.all_eq_true, Option.isNone_iff_eq_none, beq_iff_eq] at hd
  obtain ⟨⟨⟨⟨⟨⟨hcc, hcmd⟩, hal⟩, hcomp⟩, hnd⟩, hdis⟩, hend⟩ := hd
  have hres' : ∀ f ∈ d.fields, isRes f.ty = true → a f.name = none := by
    intro f hf hr
    apply hres
    exact List.mem_map.mpr ⟨f, List.mem_filter.mpr ⟨hf, hr⟩, rfl⟩
  obtain ⟨attrs, e, hA, hB⟩ := initAttrs_ok (acc := []) hs hb hres' hnd
  have hA' : ∀ f ∈ d.fields, Dict.get? attrs f.name = attrVal f a := by
    intro f hf
    cases hr : isRes f.ty with
    | false =>
      rw [hA f hf hr]
      cases h : a f.name <;> simp [attrVal, h]
    | true =>
      rw [hB _ (Or.inr (hres' f hf hr))]
      simp [attrVal, hres' f hf hr]
  obtain ⟨w1, e1, ok1, b1, s1⟩ := addBytes_uint (w := Writer.new) (v := d.cc) (n := 1) rfl (by omega) (by omega)
  obtain ⟨w2, e2, ok2, b2, s2⟩ := addBytes_uint (w := w1) (v := d.cmd) (n := 1) s1 (by omega) (by omega)
  obtain ⟨w3, e3, ok3, b3, s3⟩ := composeFields_ok (cmd := cmd) hs hcomp hb hres' hA' ok2 (by rw [s2]; exact hal)
  refine ⟨attrs, w3.data, e, by simp [composeDef, e1, e2, e3, bind, Except.bind, pure, Except.pure], ?_⟩
  rw [s2, hend] at s3
  rw [← Writer.bits_aligned s3, b3, b2, b1, Writer.bits_new]
  simp

end Model

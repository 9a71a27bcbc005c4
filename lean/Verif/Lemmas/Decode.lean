import Verif.Lemmas.Compose
/-! Helper lemmas: parsing a field list reads back the slots. -/
namespace Model
open Spec

/-! ### reading -/

theorem Reader.rest_length (r : Reader) : r.rest.length = 8 * r.data.length - r.start := by
  simp [Reader.rest]

theorem Reader.value_rest {r : Reader} {b : Bytes} {tl : List Bool} {n : Nat} (hs : r.start % 8 = 0)
    (h : r.rest = bitsOf b ++ tl) (hl : b.length = n) (hle : r.start ≤ 8 * r.data.length) :
    r.value n = .ok (b, r.advance (8 * n)) ∧ (r.advance (8 * n)).rest = tl := by
  subst hl
  obtain ⟨k, hk⟩ : ∃ k, r.start = 8 * k := ⟨r.start / 8, by omega⟩
  have hlen := congrArg List.length h
  rw [Reader.rest_length, List.length_append, bitsOf_length] at hlen
  have hdiv : r.start / 8 = k := by omega
  have hr : r.rest = bitsOf (r.data.drop k) := by rw [Reader.rest, hk, bitsOf_drop]
  constructor
  · rw [Reader.value_ok (by rw [hdiv]; omega)]
    simp only [if_true, hdiv, Nat.mul_comm b.length 8]
    congr 2
    apply bitsOf_inj
    rw [← bitsOf_take, ← hr, h, List.take_append_of_le_length (by simp), List.take_of_length_le (by simp)]
  · rw [Reader.rest_advance, h, List.drop_append_of_le_length (by simp), List.drop_eq_nil_of_le (by simp)]
    simp

theorem Reader.bits_rest {r : Reader} {bs tl : List Bool} {n : Nat} (hn : 0 < n) (h8 : r.start % 8 + n ≤ 8)
    (h : r.rest = bs ++ tl) (hl : bs.length = n) :
    r.bits n = .ok (ofBits bs, r.advance n) ∧ (r.advance n).rest = tl := by
  subst hl
  have hlen := congrArg List.length h
  rw [Reader.rest_length, List.length_append] at hlen
  constructor
  · rw [Reader.bits_ok (by omega) h8]
    simp [h]
  · rw [Reader.rest_advance, h]; simp

theorem Reader.byte_rest {r : Reader} {b : UInt8} {tl : List Bool} (hs : r.start % 8 = 0)
    (h : r.rest = toBits 8 b.toNat ++ tl) (hle : r.start ≤ 8 * r.data.length) :
    r.byte = .ok (b, r.advance 8) ∧ (r.advance 8).rest = tl := by
  have := Reader.value_rest (r := r) (b := [b]) (tl := tl) (n := 1) hs (by simpa using h) rfl hle
  simpa [Reader.byte, this.1] using this.2

theorem Reader.remaining_rest {r : Reader} {b : Bytes} (hs : r.start % 8 = 0) (h : r.rest = bitsOf b) :
    r.remaining.1 = b := by
  obtain ⟨k, hk⟩ : ∃ k, r.start = 8 * k := ⟨r.start / 8, by omega⟩
  have hdiv : r.start / 8 = k := by omega
  simp only [Reader.remaining, hdiv]
  apply bitsOf_inj
  rw [← bitsOf_drop, ← hk]; exact h

theorem Reader.rest_nil_of_bytesLeft {r : Reader} (hle : r.start ≤ 8 * r.data.length) (h : r.bytesLeft = 0) :
    r.rest = [] := by
  have := Reader.rest_length r
  simp only [Reader.bytesLeft] at h
  apply List.eq_nil_of_length_eq_zero
  omega

/-! ### association nodes -/

theorem deserPairs_ok (l : List (Nat × Nat)) (h : ∀ p ∈ l, p.1 < 256 ∧ p.2 < 256) :
    deserPairs ((l.flatMap fun (n, e) => [n, e]).map UInt8.ofNat) = .ok (l.map fun p => (p.1, some p.2)) := by
  induction l with
  | nil => rfl
  | cons p l ih =>
    obtain ⟨n, e⟩ := p
    have hp := h (n, e) (by simp)
    have ih := ih (fun q hq => h q (by simp [hq]))
    simp only [List.flatMap_cons, List.map_cons, List.cons_append, List.nil_append,
      deserPairs, ih, bind, Except.bind, pure, Except.pure]
    simp [Nat.mod_eq_of_lt hp.1, Nat.mod_eq_of_lt hp.2]

theorem deserNodes_append (pl : List Nat) (t : Bytes) (h : ∀ n ∈ pl, n < 256) (h0 : 0 ∉ pl) (l : List (Nat × Option Nat))
    (ht : deserNodes t = .ok l) :
    deserNodes (pl.map UInt8.ofNat ++ t) = .ok (pl.map (fun n => (n, none)) ++ l) := by
  induction pl with
  | nil => simpa using ht
  | cons n pl ih =>
    have hn := h n (by simp)
    have hn0 : n ≠ 0 := fun e => h0 (by simp [e])
    have ih := ih (fun m hm => h m (by simp [hm])) (fun hc => h0 (by simp [hc]))
    have hne : UInt8.ofNat n ≠ 0 := by
      intro e
      have := congrArg UInt8.toNat e
      simp [Nat.mod_eq_of_lt hn] at this
      exact hn0 this
    simp only [List.map_cons, List.cons_append, deserNodes, if_neg hne, ih, bind, Except.bind, pure, Except.pure]
    simp [Nat.mod_eq_of_lt hn]

theorem pointTargets_lt (l : List (Nat × Option Nat)) (h : nodesFit l = true) :
    (∀ n ∈ plainTargets l, n < 256) ∧ (∀ p ∈ pointTargets l, p.1 < 256 ∧ p.2 < 256) := by
  have hw := nodesWire_lt l h
  refine ⟨fun n hn => hw n (by simp [nodesWire, hn]), ?_⟩
  intro p hp
  have hne : pointTargets l ≠ [] := fun h => by simp [h] at hp
  have hm : ∀ x ∈ [p.1, p.2], x < 256 := fun x hx => hw x (by
    simp only [nodesWire, List.mem_append]; right
    rw [if_neg hne]
    exact List.mem_cons_of_mem _ (List.mem_flatMap.mpr ⟨p, hp, hx⟩))
  exact ⟨hm _ (by simp), hm _ (by simp)⟩

theorem deserNodes_wire (l : List (Nat × Option Nat)) (h : nodesFit l = true) (h0 : 0 ∉ plainTargets l) :
    deserNodes ((nodesWire l).map UInt8.ofNat) = .ok (targetsNormal l) := by
  obtain ⟨h1, h2⟩ := pointTargets_lt l h
  rw [nodesWire, List.map_append]
  rw [deserNodes_append _ _ h1 h0 ((pointTargets l).map fun p => (p.1, some p.2))]
  · rfl
  · split
    · rename_i e; simp [e, deserNodes]
    · simpa [deserNodes] using deserPairs_ok _ h2

/-! ### one field -/

/-- consumes everything up to the end -/
def isRest : FT → Bool
  | .bytes => true
  | .nodes => true
  | _ => false

/-- `v` is written like the stored value `o` (or the default if nothing is stored). -/
def SerEq (v : Val) (o : Option Val) (t : FT) : Prop :=
  ∃ v0, o.or (defaultVal t) = some v0 ∧ ∀ w, serVal v w = serVal v0 w

theorem ofBits_zeros (n : Nat) : ofBits (List.replicate n false) = 0 := by
  rw [replicate_false, ofBits_toBits]; simp

theorem targets_normal (l : List (Nat × Option Nat)) (h : nodesFit l = true) :
    nodesFit (targetsNormal l) = true ∧ nodesWire (targetsNormal l) = nodesWire l := by
  have e1 : ∀ (p : List Nat) (q : List (Nat × Nat)), plainTargets (p.map (fun n => (n, none)) ++ q.map (fun x => (x.1, some x.2))) = p := by
    intro p q
    induction p with
    | nil =>
      simp only [List.map_nil, List.nil_append]
      induction q with
      | nil => rfl
      | cons x q ih => simpa [plainTargets] using ih
    | cons n p ih => simpa [plainTargets] using ih
  have e2 : ∀ (p : List Nat) (q : List (Nat × Nat)), pointTargets (p.map (fun n => (n, none)) ++ q.map (fun x => (x.1, some x.2))) = q := by
    intro p q
    induction p with
    | nil =>
      simp only [List.map_nil, List.nil_append]
      induction q with
      | nil => rfl
      | cons x q ih => simpa [pointTargets] using ih
    | cons n p ih => simpa [pointTargets] using ih
  refine ⟨?_, by simp only [nodesWire, targetsNormal, e1, e2]⟩
  obtain ⟨h1, h2⟩ := pointTargets_lt l h
  simp only [nodesFit, targetsNormal, List.all_append, Bool.and_eq_true, List.all_eq_true, List.mem_map]
  constructor
  · rintro x ⟨n, hn, rfl⟩; simpa using h1 n hn
  · rintro x ⟨q, hq, rfl⟩; simpa using h2 q hq

theorem ofBits_single (b : Bool) : ofBits [b] = if b then 1 else 0 := by cases b <;> rfl

theorem toNat_lt_pow {v : Int} {n : Nat} (h0 : 0 ≤ v) (h : v < 2 ^ n) : v.toNat < 2 ^ n := by
  obtain ⟨k, rfl⟩ := Int.eq_ofNat_of_zero_le h0
  have : k < 2 ^ n := by exact_mod_cast h
  simpa using this

theorem deserVal_ok {f : Field} {s : Slot} {a : Args} {bits tl : List Bool} {r : Reader}
    (hs : slotOf f = some s) (hb : s.wire a = some bits) (hu : s.Unambiguous a)
    (hal : alignOk (r.start % 8) f.ty = true) (hle : r.start ≤ 8 * r.data.length)
    (hrest : r.rest = bits ++ tl) (hlast : isRest f.ty = true → tl = []) :
    ∃ v r', deserVal f.ty r = .ok (v, r') ∧
      (isRest f.ty = false → r' = r.advance bits.length ∧ r'.rest = tl) ∧
      (∀ t, isRes f.ty = true → ∃ v', coerce t v = .ok v') ∧
      (isRes f.ty = true → coerce f.ty v = .ok (.num f.ty 0)) ∧
      (isRes f.ty = false → ∃ v' x, coerce f.ty v = .ok v' ∧ (valArg v' = some x ∧ SerEq v' (attrVal f a) f.ty) ∧
        s.readBack a = some (f.name, x)) := by
  obtain ⟨name, ty, ph, ch⟩ := f
  simp only at hal hlast ⊢
  cases ty <;> simp only [slotOf, Option.some.injEq, reduceCtorEq] at hs <;> subst hs <;>
    simp only [Slot.wire] at hb
  case uint n =>
    split at hb
    · rename_i v hv
      split at hb
      · rename_i hr
        cases hb
        have hst : r.start % 8 = 0 := by simpa [alignOk, subBits] using hal
        obtain ⟨e1, e2⟩ := Reader.value_rest (n := n) hst (b := natToBE n v.toNat) (by rw [bitsOf_natToBE]; exact hrest) (by simp) hle
        refine ⟨_, _, by simp [deserVal, deserNum, e1, bind, Except.bind, pure, Except.pure]; exact ⟨rfl, rfl⟩, ?_, by simp [isRes], by simp [isRes], ?_⟩
        · intro _; simpa using e2
        · intro _
          have hlt := toNat_lt_pow hr.1 hr.2
          rw [Nat.pow_mul] at hlt
          refine ⟨.num (.uint n) v, .int v, ?_, ⟨rfl, .num (.uint n) v, by simp [attrVal, hv, argVal, coerceInit, Except.toOption], fun _ => rfl⟩, by simp [Slot.readBack, hv]⟩
          simp only [coerce, reduceCtorEq, if_false, fromBytesBE_eq, beNat_natToBE]
          rw [Nat.mod_eq_of_lt hlt, Int.toNat_of_nonneg hr.1]
      · cases hb
    · cases hb
  case ubits n =>
    split at hb
    · rename_i v hv
      split at hb
      · rename_i hr
        cases hb
        simp only [alignOk, subBits, Bool.and_eq_true, decide_eq_true_eq] at hal
        obtain ⟨e1, e2⟩ := Reader.bits_rest hal.1 hal.2 hrest (by simp)
        refine ⟨_, _, by simp [deserVal, deserNum, e1, bind, Except.bind, pure, Except.pure]; exact ⟨rfl, rfl⟩, ?_, by simp [isRes], by simp [isRes], ?_⟩
        · intro _; simpa using e2
        · intro _
          refine ⟨.num (.ubits n) v, .int v, ?_, ⟨rfl, .num (.ubits n) v, by simp [attrVal, hv, argVal, coerceInit, Except.toOption], fun _ => rfl⟩, by simp [Slot.readBack, hv]⟩
          simp only [coerce, reduceCtorEq, if_false, ofBits_toBits_of_lt (toNat_lt_pow hr.1 hr.2), Int.toNat_of_nonneg hr.1]
      · cases hb
    · cases hb
  case bits n =>
    split at hb
    · rename_i v hv
      split at hb
      · rename_i hr
        cases hb
        simp only [alignOk, subBits, Bool.and_eq_true, decide_eq_true_eq] at hal
        obtain ⟨e1, e2⟩ := Reader.bits_rest hal.1 hal.2 hrest (by simp)
        refine ⟨_, _, by simp [deserVal, deserNum, e1, bind, Except.bind, pure, Except.pure]; exact ⟨rfl, rfl⟩, ?_, by simp [isRes], by simp [isRes], ?_⟩
        · intro _; simpa using e2
        · intro _
          refine ⟨.num (.bits n) v, .int v, ?_, ⟨rfl, .num (.bits n) v, by simp [attrVal, hv, argVal, coerceInit, Except.toOption], fun _ => rfl⟩, by simp [Slot.readBack, hv]⟩
          simp only [coerce, reduceCtorEq, if_false, ofBits_toBits_of_lt (toNat_lt_pow hr.1 hr.2), Int.toNat_of_nonneg hr.1]
      · cases hb
    · cases hb
  case flag =>
    split at hb
    · rename_i v hv
      cases hb
      simp only [alignOk, subBits, Bool.and_eq_true, decide_eq_true_eq] at hal
      obtain ⟨e1, e2⟩ := Reader.bits_rest hal.1 hal.2 hrest (by simp)
      refine ⟨_, _, by simp [deserVal, deserNum, e1, bind, Except.bind, pure, Except.pure]; exact ⟨rfl, rfl⟩, ?_, by simp [isRes], by simp [isRes], ?_⟩
      · intro _; simpa using e2
      · intro _
        refine ⟨.num .flag (v % 2), .int (v % 2), ?_, ⟨rfl, .num .flag (v % 2), by simp [attrVal, hv, argVal, coerceInit, Except.toOption], fun _ => rfl⟩, by simp [Slot.readBack, hv]⟩
        have : v % 2 = 0 ∨ v % 2 = 1 := by omega
        rcases this with h | h <;> simp [coerce, h, ofBits]
    · cases hb
  case reserved n =>
    cases hb
    simp only [alignOk, subBits, Bool.and_eq_true, decide_eq_true_eq] at hal
    obtain ⟨e1, e2⟩ := Reader.bits_rest hal.1 hal.2 hrest (by simp)
    refine ⟨_, _, by simp [deserVal, deserNum, e1, bind, Except.bind, pure, Except.pure]; exact ⟨rfl, rfl⟩, ?_, ?_, ?_, by simp [isRes]⟩
    · intro _; simpa using e2
    · intro t _; exact ⟨_, by simp [coerce]; rfl⟩
    · intro _; simp [coerce, ofBits_zeros]
  case bytes =>
    have hst : r.start % 8 = 0 := by simpa [alignOk, subBits] using hal
    have htl := hlast rfl
    subst htl
    split at hb
    · rename_i v hv
      cases hb
      have e := Reader.remaining_rest hst (by simpa using hrest)
      refine ⟨_, _, by simp [deserVal, e]; exact ⟨rfl, rfl⟩, by simp [isRest], by simp [isRes], by simp [isRes], ?_⟩
      intro _; exact ⟨_, .bytes v, by simp [coerce]; rfl, ⟨rfl, _, by simp [attrVal, hv, argVal, coerceInit, Except.toOption], fun _ => rfl⟩, by simp [Slot.readBack, hv]⟩
    · rename_i hv
      cases hb
      have e := Reader.remaining_rest (b := []) hst (by simpa using hrest)
      refine ⟨_, _, by simp [deserVal, e]; exact ⟨rfl, rfl⟩, by simp [isRest], by simp [isRes], by simp [isRes], ?_⟩
      intro _; exact ⟨_, .bytes [], by simp [coerce]; rfl, ⟨rfl, _, by simp [attrVal, hv, defaultVal], fun _ => rfl⟩, by simp [Slot.readBack, hv]⟩
    · cases hb
  case dsk =>
    have hst : r.start % 8 = 0 := by simpa [alignOk, subBits] using hal
    split at hb
    · rename_i v hv
      split at hb
      · cases hb
        have hl : v.length = 16 := hu v hv
        obtain ⟨e1, e2⟩ := Reader.value_rest (n := 16) hst hrest hl hle
        refine ⟨_, _, by simp [deserVal, deserDskN, e1, bind, Except.bind, pure, Except.pure]; exact ⟨rfl, rfl⟩, ?_, by simp [isRes], by simp [isRes], ?_⟩
        · intro _; simpa [hl] using e2
        · intro _; exact ⟨_, .bytes v, by simp [coerce]; rfl, ⟨rfl, _, by simp [attrVal, hv, argVal, coerceInit, Except.toOption, hl], fun _ => rfl⟩, by simp [Slot.readBack, hv]⟩
      · cases hb
    · cases hb
  case ipv6 =>
    have hst : r.start % 8 = 0 := by simpa [alignOk, subBits] using hal
    split at hb
    · rename_i v hv
      split at hb
      · rename_i hl
        cases hb
        obtain ⟨e1, e2⟩ := Reader.value_rest (n := 16) hst hrest hl hle
        refine ⟨_, _, by simp [deserVal, e1, bind, Except.bind, pure, Except.pure]; exact ⟨rfl, rfl⟩, ?_, by simp [isRes], by simp [isRes], ?_⟩
        · intro _; simpa [hl] using e2
        · intro _; exact ⟨_, .bytes v, by simp [coerce]; rfl, ⟨rfl, _, by simp [attrVal, hv, argVal, coerceInit, Except.toOption, hl], fun _ => rfl⟩, by simp [Slot.readBack, hv]⟩
      · cases hb
    · cases hb
  case nodes =>
    have hst : r.start % 8 = 0 := by simpa [alignOk, subBits] using hal
    have htl := hlast rfl
    subst htl
    split at hb
    · rename_i l hv
      split at hb
      · rename_i hl
        cases hb
        have e := Reader.remaining_rest (b := (nodesWire l).map UInt8.ofNat) hst
          (by rw [bitsOf_map_ofNat _ (nodesWire_lt l hl)]; simpa using hrest)
        have e2 := deserNodes_wire l hl (hu l hv)
        refine ⟨_, _, by simp [deserVal, e, e2, bind, Except.bind, pure, Except.pure]; exact ⟨rfl, rfl⟩, by simp [isRest], by simp [isRes], by simp [isRes], ?_⟩
        intro _
        refine ⟨.nodes (targetsNormal l), _, by simp [coerce], ⟨rfl, .nodes l, by simp [attrVal, hv, argVal, coerceInit, Except.toOption], fun w => ?_⟩, by simp [Slot.readBack, hv]⟩
        obtain ⟨n1, n2⟩ := targets_normal l hl
        simp only [serVal, serNodes_ok _ n1, serNodes_ok _ hl, n2]
      · cases hb
    · rename_i hv
      cases hb
      have e := Reader.remaining_rest (b := []) hst (by simpa using hrest)
      refine ⟨_, _, by simp [deserVal, e, deserNodes, bind, Except.bind, pure, Except.pure]; exact ⟨rfl, rfl⟩, by simp [isRest], by simp [isRes], by simp [isRes], ?_⟩
      intro _; exact ⟨.nodes [], _, by simp [coerce], ⟨rfl, .nodes [], by simp [attrVal, hv, defaultVal], fun _ => rfl⟩, by simp [Slot.readBack, hv]⟩
    · cases hb

/-! ### all fields -/

def restLast : List Field → Bool
  | [] => true
  | [_] => true
  | f :: fs => !isRest f.ty && restLast fs

theorem slotsWire_nil {a : Args} {ss : List Slot} (h : slotsWire a ss = some []) :
    ∀ s ∈ ss, s.wire a = some [] := by
  induction ss with
  | nil => simp
  | cons s ss ih =>
    simp only [slotsWire] at h
    split at h
    · rename_i x y hx hy
      simp only [Option.some.injEq, List.append_eq_nil_iff] at h
      obtain ⟨rfl, rfl⟩ := h
      intro t ht
      rcases List.mem_cons.mp ht with rfl | ht
      · exact hx
      · exact ih hy t ht
    · cases h

theorem mem_slotsOf {fs : List Field} {ss : List Slot} (h : slotsOf fs = some ss) {f : Field} (hf : f ∈ fs) :
    ∃ s ∈ ss, slotOf f = some s := by
  induction fs generalizing ss with
  | nil => cases hf
  | cons g fs ih =>
    simp only [slotsOf] at h
    split at h
    · rename_i s ss' h1 h2
      cases h
      rcases List.mem_cons.mp hf with rfl | hf
      · exact ⟨s, by simp, h1⟩
      · obtain ⟨t, ht, e⟩ := ih h2 hf
        exact ⟨t, by simp [ht], e⟩
    · cases h

theorem empty_default {f : Field} {s : Slot} {a : Args} (hs : slotOf f = some s) (hb : s.wire a = some [])
    (hu : s.Unambiguous a) (hr : isRes f.ty = false) (hpos : f.ty ≠ .uint 0 ∧ subBits f.ty ≠ some 0) :
    ∃ v x, defaultVal f.ty = some v ∧ (valArg v = some x ∧ SerEq v (attrVal f a) f.ty) ∧ s.readBack a = some (f.name, x) := by
  obtain ⟨name, ty, ph, ch⟩ := f
  simp only at hr hpos ⊢
  have hlen : ∀ n v, some (toBits n v) = some ([] : List Bool) → n = 0 := by
    intro n v h
    have := congrArg List.length (Option.some.inj h)
    simpa using this
  cases ty <;> simp only [slotOf, Option.some.injEq, reduceCtorEq] at hs <;> subst hs <;>
    simp only [Slot.wire] at hb
  case uint n =>
    split at hb
    · split at hb
      · have := hlen _ _ hb; exact absurd (show n = 0 by omega) (by simpa using hpos.1)
      · cases hb
    · cases hb
  case ubits n =>
    split at hb
    · split at hb
      · have := hlen _ _ hb; exact absurd this (by simpa [subBits] using hpos.2)
      · cases hb
    · cases hb
  case bits n =>
    split at hb
    · split at hb
      · have := hlen _ _ hb; exact absurd this (by simpa [subBits] using hpos.2)
      · cases hb
    · cases hb
  case flag => split at hb <;> cases hb
  case reserved n => simp [isRes] at hr
  case bytes =>
    split at hb
    · rename_i v hv
      have hv0 : v = [] := by
        have := congrArg List.length (Option.some.inj hb)
        simp at this; exact List.eq_nil_of_length_eq_zero (by omega)
      subst hv0
      exact ⟨_, _, rfl, ⟨rfl, _, by simp [attrVal, hv, argVal, coerceInit, Except.toOption], fun _ => rfl⟩, by simp [Slot.readBack, hv]⟩
    · rename_i hv; exact ⟨_, _, rfl, ⟨rfl, _, by simp [attrVal, hv, defaultVal], fun _ => rfl⟩, by simp [Slot.readBack, hv]⟩
    · cases hb
  case dsk =>
    split at hb
    · rename_i v hv
      split at hb
      · have h16 := hu v hv
        have := congrArg List.length (Option.some.inj hb)
        simp [h16] at this
      · cases hb
    · cases hb
  case ipv6 =>
    split at hb
    · split at hb
      · rename_i v hv h16
        have := congrArg List.length (Option.some.inj hb)
        simp [h16] at this
      · cases hb
    · cases hb
  case nodes =>
    split at hb
    · rename_i l hv
      split at hb
      · have h0 := congrArg List.length (Option.some.inj hb)
        have hnil : nodesWire l = [] := by
          cases hw : nodesWire l with
          | nil => rfl
          | cons x xs => rw [hw] at h0; simp at h0
        have hl : l = [] := by
          cases l with
          | nil => rfl
          | cons p l =>
            obtain ⟨n, e⟩ := p
            cases e <;> simp [nodesWire, plainTargets, pointTargets] at hnil
        subst hl
        exact ⟨_, _, rfl, ⟨rfl, _, by simp [attrVal, hv, argVal, coerceInit, Except.toOption], fun _ => rfl⟩, by simp [Slot.readBack, hv]; rfl⟩
      · cases hb
    · rename_i hv; exact ⟨_, _, rfl, ⟨rfl, _, by simp [attrVal, hv, defaultVal], fun _ => rfl⟩, by simp [Slot.readBack, hv]⟩
    · cases hb

theorem slotOf_not_message {f : Field} {s : Slot} (h : slotOf f = some s) : f.ty ≠ .message := by
  intro e; simp [slotOf, e] at h

theorem parseFields_ok {all fs : List Field} {ss : List Slot} {a : Args} {bits : List Bool} {r : Reader}
    {acc : Dict String Val} {dec : Reader → Py (Msg × Reader)}
    (hs : slotsOf fs = some ss) (hp : ∀ f ∈ fs, f.parse = none) (hb : slotsWire a ss = some bits)
    (hu : ∀ s ∈ ss, s.Unambiguous a)
    (hpos : ∀ f ∈ fs, f.ty ≠ .uint 0 ∧ subBits f.ty ≠ some 0)
    (hty : ∀ f ∈ fs, isRes f.ty = false → typeOf all f.name = f.ty)
    (hal : aligned (r.start % 8) fs = true) (hlast : restLast fs = true)
    (hle : r.start ≤ 8 * r.data.length) (hrest : r.rest = bits)
    (hnd : (valNames fs).Nodup) (hdis : ∀ n ∈ resNames fs, n ∉ valNames fs)
    (hacc : ∀ n ∈ valNames fs, Dict.get? acc n = none) :
    ∃ acc' r', parseFields all dec fs r acc = .ok (acc', none, r') ∧
      (∀ f ∈ fs, isRes f.ty = false → ∃ s v x, slotOf f = some s ∧
        (Dict.get? acc' f.name).or (defaultVal f.ty) = some v ∧ (valArg v = some x ∧ SerEq v (attrVal f a) f.ty) ∧
        s.readBack a = some (f.name, x)) ∧
      (∀ n, n ∉ fs.map Field.name → Dict.get? acc' n = Dict.get? acc n) ∧
      (∀ f ∈ fs, isRes f.ty = true → (∀ g ∈ fs, g.name = f.name → g.ty = f.ty) → typeOf all f.name = f.ty →
        (Dict.get? acc f.name = none ∨ Dict.get? acc f.name = some (.num f.ty 0)) →
        Dict.get? acc' f.name = none ∨ Dict.get? acc' f.name = some (.num f.ty 0)) := by
  induction fs generalizing ss bits r acc with
  | nil => exact ⟨acc, r, rfl, by simp, by simp, by simp⟩
  | cons f fs ih =>
    by_cases hz : r.bytesLeft = 0
    · -- end of data: all remaining slots are empty
      refine ⟨acc, r, by simp [parseFields, hz], ?_, fun _ _ => rfl, fun _ _ _ _ _ h => h⟩
      have hbn : bits = [] := by rw [← hrest]; exact Reader.rest_nil_of_bytesLeft hle hz
      subst hbn
      intro g hg hgr
      obtain ⟨s, hsm, hso⟩ := mem_slotsOf hs hg
      obtain ⟨v, x, h1, h2, h3⟩ := empty_default hso (slotsWire_nil hb s hsm) (hu s hsm) hgr (hpos g hg)
      refine ⟨s, v, x, hso, ?_, h2, h3⟩
      rw [hacc g.name (List.mem_map.mpr ⟨g, List.mem_filter.mpr ⟨hg, by simp [hgr]⟩, rfl⟩), h1]
      rfl
    · simp only [slotsOf] at hs
      split at hs
      · rename_i s ss' h1 h2
        cases hs
        simp only [slotsWire] at hb
        split at hb
        · rename_i x y hx hy
          cases hb
          simp only [aligned, Bool.and_eq_true] at hal
          have hmsg := slotOf_not_message h1
          have hpar : f.parse = none := hp f (by simp)
          have hlastf : isRest f.ty = true → y = [] := by
            intro hrst
            cases fs with
            | nil => simp [slotsOf] at h2; subst h2; simp [slotsWire] at hy; exact hy
            | cons g gs => simp [restLast, hrst] at hlast
          have hlast' : restLast fs = true := by
            cases fs with
            | nil => rfl
            | cons g gs => simp [restLast] at hlast; exact hlast.2
          obtain ⟨v, r1, e1, hadv, hcr, hcz, hcv⟩ := deserVal_ok h1 hx (hu s (by simp)) hal.1 hle hrest hlastf
          have hnd' : (valNames fs).Nodup := by
            unfold valNames at hnd ⊢
            rw [List.filter_cons] at hnd
            split at hnd
            · exact (List.nodup_cons.mp hnd).2
            · exact hnd
          have hdis' : ∀ n ∈ resNames fs, n ∉ valNames fs := by
            intro n hn hc
            apply hdis n
            · unfold resNames at hn ⊢; rw [List.filter_cons]; split
              · exact List.mem_cons_of_mem _ hn
              · exact hn
            · unfold valNames at hc ⊢; rw [List.filter_cons]; split
              · exact List.mem_cons_of_mem _ hc
              · exact hc
          have hfn : f.name ∉ valNames fs := by
            cases hr : isRes f.ty with
            | false =>
              unfold valNames at hnd ⊢
              rw [List.filter_cons, if_pos (by simp [hr]), List.map_cons] at hnd
              exact (List.nodup_cons.mp hnd).1
            | true =>
              intro hc
              apply hdis f.name
              · unfold resNames; rw [List.filter_cons, if_pos hr]; simp
              · unfold valNames at hc ⊢; rw [List.filter_cons, if_neg (by simp [hr])]; exact hc
          -- the value stored
          obtain ⟨v', hv'⟩ : ∃ v', coerce (typeOf all f.name) v = .ok v' := by
            cases hr : isRes f.ty with
            | false => obtain ⟨v', _, h, _⟩ := hcv hr; exact ⟨v', by rw [hty f (by simp) hr]; exact h⟩
            | true => exact hcr _ hr
          have hstep : parseFields all dec (f :: fs) r acc = parseFields all dec fs r1 (Dict.set acc f.name v') := by
            simp only [parseFields, if_neg hz, if_neg hmsg, hpar, e1, hv', bind, Except.bind]
          have hval : isRes f.ty = false → ∃ s x, slotOf f = some s ∧ (valArg v' = some x ∧ SerEq v' (attrVal f a) f.ty) ∧ s.readBack a = some (f.name, x) := by
            intro hr
            obtain ⟨w, x, hw, h3, h4⟩ := hcv hr
            rw [hty f (by simp) hr, hw] at hv'
            cases hv'
            exact ⟨s, x, h1, h3, h4⟩
          cases hrst : isRest f.ty with
          | true =>
            have hfs : fs = [] := by
              cases fs with
              | nil => rfl
              | cons g gs => simp [restLast, hrst] at hlast
            subst hfs
            refine ⟨Dict.set acc f.name v', r1, by rw [hstep]; rfl, ?_, ?_, ?_⟩
            · intro g hg hgr
              simp at hg; subst hg
              obtain ⟨s, x, a1, a2, a3⟩ := hval hgr
              exact ⟨s, v', x, a1, by simp, a2, a3⟩
            · intro n hn
              rw [Dict.get?_set_ne]
              intro e; apply hn; simp [e]
            · intro g hg hgr
              simp at hg; subst hg
              cases hg2 : g.ty <;> simp [hg2, isRes, isRest] at hgr hrst
          | false =>
            obtain ⟨hadv1, hadv2⟩ := hadv hrst
            have hlen := congrArg List.length hrest
            rw [Reader.rest_length, List.length_append] at hlen
            have hxlen : r.start + x.length ≤ 8 * r.data.length := by
              by_cases h0 : x.length = 0
              · omega
              · omega
            have hstart : r1.start % 8 = nextOff (r.start % 8) f.ty := by
              rw [hadv1]
              show (r.start + x.length) % 8 = _
              have hxl : (∀ n, subBits f.ty = some n → x.length = n) ∧ (subBits f.ty = none → x.length % 8 = 0) := by
                clear hadv hadv1 hadv2 hcv hcr hstep hval hv' e1 ih
                obtain ⟨name, ty, ph, ch⟩ := f
                cases ty <;> simp only [slotOf, Option.some.injEq, reduceCtorEq] at h1 <;> subst h1 <;>
                  simp only [Slot.wire] at hx <;> (try (split at hx)) <;> (try (split at hx)) <;>
                  simp only [Option.some.injEq, reduceCtorEq] at hx <;> subst hx <;>
                  simp [subBits, isRest] at hrst ⊢
              simp only [nextOff]
              cases hsb : subBits f.ty with
              | some n => have := hxl.1 n hsb; simp only; omega
              | none =>
                have := hxl.2 hsb
                have h0 : r.start % 8 = 0 := by
                  have := hal.1; simp only [alignOk, hsb, beq_iff_eq] at this; exact this
                simp only; omega
            obtain ⟨acc', r', e2, hA, hB, hC⟩ := ih (r := r1) (acc := Dict.set acc f.name v') h2
              (fun g hg => hp g (by simp [hg])) hy (fun t ht => hu t (by simp [ht])) (fun g hg => hpos g (by simp [hg]))
              (fun g hg => hty g (by simp [hg])) (by rw [hstart]; exact hal.2) hlast'
              (by rw [hadv1]; exact hxlen) hadv2 hnd' hdis'
              (by
                intro n hn
                rw [Dict.get?_set_ne]
                · apply hacc
                  unfold valNames at hn ⊢; rw [List.filter_cons]; split
                  · exact List.mem_cons_of_mem _ hn
                  · exact hn
                · intro e; subst e; exact hfn hn)
            refine ⟨acc', r', by rw [hstep]; exact e2, ?_, ?_, ?_⟩
            · intro g hg hgr
              rcases List.mem_cons.mp hg with rfl | hg
              · obtain ⟨s, x, a1, a2, a3⟩ := hval hgr
                refine ⟨s, v', x, a1, ?_, a2, a3⟩
                -- not overwritten later
                have hnot : g.name ∉ fs.map Field.name := by
                  intro hc
                  obtain ⟨h, hh, he⟩ := List.mem_map.mp hc
                  cases hr2 : isRes h.ty with
                  | false =>
                    exact hfn (List.mem_map.mpr ⟨h, List.mem_filter.mpr ⟨hh, by simp [hr2]⟩, he⟩)
                  | true =>
                    apply hdis g.name
                    · exact List.mem_map.mpr ⟨h, List.mem_filter.mpr ⟨by simp [hh], hr2⟩, he⟩
                    · exact List.mem_map.mpr ⟨g, List.mem_filter.mpr ⟨by simp, by simp [hgr]⟩, rfl⟩
                rw [hB _ hnot]; simp
              · exact hA g hg hgr
            · intro n hn
              simp only [List.map_cons, List.mem_cons, not_or] at hn
              rw [hB n hn.2, Dict.get?_set_ne _ _ (fun e => hn.1 e.symm)]
            · intro g hg hgr hsame hgt hga
              -- the accumulator after this attribute
              have hacc' : Dict.get? (Dict.set acc f.name v') g.name = none ∨
                  Dict.get? (Dict.set acc f.name v') g.name = some (.num g.ty 0) := by
                by_cases hn : f.name = g.name
                · right
                  have hft : f.ty = g.ty := hsame f (by simp) hn
                  rw [← hn, Dict.get?_set_self]
                  have hz0 := hcz (by rw [hft]; exact hgr)
                  rw [hn, hgt, ← hft, hz0] at hv'
                  cases hv'
                  rw [hft]
                · rw [Dict.get?_set_ne _ _ (fun e => hn e)]; exact hga
              by_cases hin : g.name ∈ fs.map Field.name
              · obtain ⟨h, hh, he⟩ := List.mem_map.mp hin
                have hht : h.ty = g.ty := hsame h (by simp [hh]) he
                have := hC h hh (by rw [hht]; exact hgr) (by
                  intro k hk hke
                  rw [hht]
                  exact hsame k (by simp [hk]) (by rw [hke, he])) (by rw [he, hht]; exact hgt) (by rw [he, hht]; exact hacc')
                rw [he, hht] at this
                exact this
              · rw [hB _ hin]; exact hacc'
        · cases hb
      · cases hs

end Model

import Verif.Lemmas.Fields
import Verif.Spec.Records
/-! Helper lemmas: repeated records in messages. -/
namespace Model
open Spec

theorem agiPairs_ok (ps : List (UInt8 × UInt8)) : ∀ (pre tl : Bytes),
    ∃ r, agiPairs ps.length ⟨pre ++ (ps.flatMap (fun p => [p.1, p.2]) ++ tl), 8 * pre.length⟩ = .ok (ps, r) := by
  induction ps with
  | nil => intro pre tl; exact ⟨⟨pre ++ tl, 8 * pre.length⟩, by simp [agiPairs]⟩
  | cons p ps ih =>
    intro pre tl
    obtain ⟨c, d⟩ := p
    obtain ⟨r, e⟩ := ih (pre ++ [c] ++ [d]) tl
    refine ⟨r, ?_⟩
    have e1 := read_byte pre (d :: (ps.flatMap (fun p => [p.1, p.2]) ++ tl)) c
    have e2 := read_byte (pre ++ [c]) (ps.flatMap (fun p => [p.1, p.2]) ++ tl) d
    simp only [List.length_cons, agiPairs, List.flatMap_cons, List.cons_append, List.nil_append, e1, e2, bind, Except.bind, e, pure, Except.pure]

theorem agiPairs_eof : ∀ (k : Nat) (b pre : Bytes), b.length < 2 * k →
    agiPairs k ⟨pre ++ b, 8 * pre.length⟩ = .error .eof := by
  intro k
  induction k with
  | zero => intro b pre h; omega
  | succ k ih =>
    intro b pre h
    match b with
    | [] => simp only [agiPairs]; rw [Reader.byte_eof (by simp)]; rfl
    | [c] =>
      have e1 := read_byte pre [] c
      simp only [agiPairs, e1, bind, Except.bind]
      rw [Reader.byte_eof (by simp)]
    | c :: d :: b =>
      have e1 := read_byte pre (d :: b) c
      have e2 := read_byte (pre ++ [c]) b d
      simp only [agiPairs, e1, e2, bind, Except.bind]
      rw [ih b _ (by simp at h; omega)]

theorem parseNums_u8 (fs : List (String × FT)) (name : String) (pre tl : Bytes) (b : UInt8) (acc : Dict String Int) :
    parseNums ((name, .uint 1) :: fs) ⟨pre ++ b :: tl, 8 * pre.length⟩ acc =
      parseNums fs ⟨(pre ++ [b]) ++ tl, 8 * (pre ++ [b]).length⟩ (Dict.set acc name b.toNat) := by
  have e := read_value pre [b] tl 1 rfl
  simp only [List.singleton_append] at e
  rw [parseNums, read_left, if_neg (by simp; omega)]
  simp only [deserNum, e, bind, Except.bind, pure, Except.pure]
  simp [fromBytesBE]

theorem parseNums_u16 (fs : List (String × FT)) (name : String) (pre tl : Bytes) (a b : UInt8) (acc : Dict String Int) :
    parseNums ((name, .uint 2) :: fs) ⟨pre ++ a :: b :: tl, 8 * pre.length⟩ acc =
      parseNums fs ⟨(pre ++ [a, b]) ++ tl, 8 * (pre ++ [a, b]).length⟩ (Dict.set acc name (a.toNat * 256 + b.toNat : Nat)) := by
  have e := read_value pre [a, b] tl 2 rfl
  simp only [List.cons_append, List.nil_append] at e
  rw [parseNums, read_left, if_neg (by simp; omega)]
  simp only [deserNum, e, bind, Except.bind, pure, Except.pure]
  simp [fromBytesBE]

theorem parseNums_res8 (fs : List (String × FT)) (name : String) (pre tl : Bytes) (b : UInt8) (acc : Dict String Int) :
    parseNums ((name, .reserved 8) :: fs) ⟨pre ++ b :: tl, 8 * pre.length⟩ acc =
      parseNums fs ⟨(pre ++ [b]) ++ tl, 8 * (pre ++ [b]).length⟩ (Dict.set acc name b.toNat) := by
  have e := read_bits_lo pre tl b 0 8 rfl (by omega)
  simp only [Nat.add_zero] at e
  rw [parseNums, read_left, if_neg (by simp; omega)]
  simp only [deserNum, e, bind, Except.bind, pure, Except.pure]
  have := UInt8.toNat_lt b
  rw [Nat.mod_eq_of_lt (by simpa using this)]

def _root_.Spec.GroupRec.dict (g : GroupRec) : Dict String Int :=
  [("groupingIdentifier", g.id.toNat), ("mode", g.mode.toNat), ("profile", (g.profile.1.toNat * 256 + g.profile.2.toNat : Nat)),
   ("-", g.reserved.toNat), ("eventCode", (g.event.1.toNat * 256 + g.event.2.toNat : Nat))]

theorem agiGroups_ok (gs : List GroupRec) : ∀ (pre tl : Bytes),
    ∃ r, agiGroups gs.length ⟨pre ++ (gs.flatMap GroupRec.wire ++ tl), 8 * pre.length⟩ = .ok (gs.map GroupRec.dict, r) := by
  induction gs with
  | nil => intro pre tl; exact ⟨⟨pre ++ tl, 8 * pre.length⟩, by simp [agiGroups]⟩
  | cons g gs ih =>
    intro pre tl
    obtain ⟨r, e⟩ := ih (pre ++ [g.id] ++ [g.mode] ++ [g.profile.1, g.profile.2] ++ [g.reserved] ++ [g.event.1, g.event.2]) tl
    refine ⟨r, ?_⟩
    rw [List.length_cons, agiGroups, List.flatMap_cons, groupFields]
    simp only [GroupRec.wire, List.cons_append, List.nil_append]
    rw [parseNums_u8, parseNums_u8, parseNums_u16, parseNums_res8, parseNums_u16, parseNums]
    simp only [bind, Except.bind]
    rw [e]
    rfl

/-! ## metadata -/

theorem metaLoop_ok (l : List (Nat × Bool × Bytes)) : ∀ (fuel : Nat) (pre : Bytes) (acc : Dict Nat Bytes),
    (∀ e ∈ l, e.1 < 128 ∧ e.2.2.length < 256) → l.length < fuel →
    ∃ r, metaLoop fuel ⟨pre ++ metaWire l, 8 * pre.length⟩ acc =
      .ok (l.foldl (fun d e => Dict.set d e.1 e.2.2) acc, r) := by
  induction l with
  | nil =>
    intro fuel pre acc _ hf
    obtain ⟨f, rfl⟩ : ∃ f, fuel = f + 1 := ⟨fuel - 1, by simp at hf; omega⟩
    refine ⟨⟨pre ++ [], 8 * pre.length⟩, ?_⟩
    rw [metaLoop, read_left, if_pos (by simp [metaWire])]
    simp [metaWire]
  | cons e l ih =>
    intro fuel pre acc hl hf
    obtain ⟨t, c, b⟩ := e
    have he := hl (t, c, b) (by simp)
    simp only at he
    obtain ⟨f, rfl⟩ : ∃ f, fuel = f + 1 := ⟨fuel - 1, by simp at hf; omega⟩
    have hw : metaWire ((t, c, b) :: l) = UInt8.ofNat (t * 2 + c.toNat) :: UInt8.ofNat b.length :: (b ++ metaWire l) := by
      simp [metaWire]
    have hc : c.toNat < 2 := by cases c <;> decide
    have ht : (UInt8.ofNat (t * 2 + c.toNat)).toNat = t * 2 + c.toNat := toNat_length (by omega)
    have e1 := read_bits_hi pre (UInt8.ofNat b.length :: (b ++ metaWire l)) (UInt8.ofNat (t * 2 + c.toNat)) 7 (by omega)
    have e2 := read_bits_lo pre (UInt8.ofNat b.length :: (b ++ metaWire l)) (UInt8.ofNat (t * 2 + c.toNat)) 7 1 rfl (by omega)
    have e3 := read_byte (pre ++ [UInt8.ofNat (t * 2 + c.toNat)]) (b ++ metaWire l) (UInt8.ofNat b.length)
    have e4 := read_value (pre ++ [UInt8.ofNat (t * 2 + c.toNat)] ++ [UInt8.ofNat b.length]) b (metaWire l) b.length rfl
    have hty : (UInt8.ofNat (t * 2 + c.toNat)).toNat / 2 ^ (8 - 7) % 2 ^ 7 = t := by rw [ht]; omega
    rw [hty] at e1
    obtain ⟨r, ih⟩ := ih f (pre ++ [UInt8.ofNat (t * 2 + c.toNat)] ++ [UInt8.ofNat b.length] ++ b) (Dict.set acc t b)
      (fun x hx => hl x (by simp [hx])) (by simp at hf; omega)
    refine ⟨r, ?_⟩
    rw [hw, metaLoop, read_left, if_neg (by simp; omega), e1]
    simp only [bind, Except.bind, Reader.bit, e2, e3, toNat_length he.2, e4, ih, List.foldl_cons]

theorem foldl_set_get (l : List (Nat × Bool × Bytes)) (t : Nat) : ∀ acc : Dict Nat Bytes,
    Dict.get? (l.foldl (fun d e => Dict.set d e.1 e.2.2) acc) t = (lastEntry l t).or (Dict.get? acc t) := by
  induction l with
  | nil => intro acc; rfl
  | cons e l ih =>
    intro acc
    rw [List.foldl_cons, ih, Dict.get?_set]
    obtain ⟨u, c, b⟩ := e
    by_cases hu : u = t
    · subst hu
      simp only [lastEntry, List.filter_cons, decide_true, if_true]
      cases hl : l.filter (fun e => decide (e.1 = u)) with
      | nil => simp
      | cons x xs => rw [List.getLast?_cons_cons]; cases hg : (x :: xs).getLast? with
        | none => simp at hg
        | some y => simp
    · simp [lastEntry, hu]

theorem foldl_set_keys (l : List (Nat × Bool × Bytes)) : ∀ acc : Dict Nat Bytes,
    ∀ k, k ∈ Dict.keys (l.foldl (fun d e => Dict.set d e.1 e.2.2) acc) ↔ k ∈ Dict.keys acc ∨ ∃ e ∈ l, e.1 = k := by
  intro acc k
  rw [← Dict.get?_isSome_iff, foldl_set_get, ← Dict.get?_isSome_iff]
  cases hL : lastEntry l k with
  | some b =>
    simp only [Option.some_or, Option.isSome_some, true_iff]
    right
    simp only [lastEntry, Option.map_eq_some_iff] at hL
    obtain ⟨e, he, -⟩ := hL
    have := List.mem_of_getLast? he
    simp only [List.mem_filter, decide_eq_true_eq] at this
    exact ⟨e, this⟩
  | none =>
    simp only [Option.none_or]
    constructor
    · exact Or.inl
    · rintro (h | ⟨e, he, hk⟩)
      · exact h
      · exfalso
        simp only [lastEntry, Option.map_eq_none_iff, List.getLast?_eq_none_iff] at hL
        have : e ∈ l.filter (fun e => decide (e.1 = k)) := by simp [he, hk]
        rw [hL] at this; cases this

end Model

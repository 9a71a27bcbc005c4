import Verif.Lemmas.Utf8
import Verif.Lemmas.Fields
/-!
# Properties C79 and C80: strings and membership in groups
-/
namespace Props
open Spec Model

/-! ## C79 -/

theorem deserStr_eq (pre s tl : Bytes) (hl : s.length < 256) :
    deserStr ⟨pre ++ UInt8.ofNat s.length :: (s ++ tl), 8 * pre.length⟩ =
      (do let t ← decodeUtf8 s; pure (t, ⟨(pre ++ [UInt8.ofNat s.length]) ++ s ++ tl, 8 * (pre ++ [UInt8.ofNat s.length] ++ s).length⟩)) := by
  simp only [deserStr, read_byte, bind, Except.bind]
  rw [read_value _ s tl _ (toNat_length hl)]

/-- **C79.** A length octet and the encoding of a text are decoded to exactly that text, and reading continues right behind it. -/
theorem C79_text (text : List Nat) (ht : ∀ c ∈ text, IsScalar c) (hl : (utf8Text text).length < 256) (pre tl : Bytes) :
    deserStr ⟨pre ++ UInt8.ofNat (utf8Text text).length :: (utf8Text text ++ tl), 8 * pre.length⟩ =
      .ok (text, ⟨(pre ++ [UInt8.ofNat (utf8Text text).length]) ++ utf8Text text ++ tl, 8 * (pre.length + 1 + (utf8Text text).length)⟩) := by
  rw [deserStr_eq _ _ _ hl, decodeUtf8_ok text ht]
  simp [bind, Except.bind, pure, Except.pure, List.append_assoc]
  omega

/-- **C79.** Octets that are not the encoding of a text raise UnicodeDecodeError. -/
theorem C79_rejected (s : Bytes) (hl : s.length < 256) (hs : ¬ ∃ text, (∀ c ∈ text, IsScalar c) ∧ s = utf8Text text) (pre tl : Bytes) :
    ∃ e, deserStr ⟨pre ++ UInt8.ofNat s.length :: (s ++ tl), 8 * pre.length⟩ = .error e := by
  rw [deserStr_eq _ _ _ hl]
  cases h : decodeUtf8 s with
  | error e => exact ⟨e, rfl⟩
  | ok t => exact absurd ⟨t, decodeUtf8_inv s t h⟩ hs

/-- **C79.** So the name in a group name report is the name the node sent. -/
theorem C79_group_name (gid : UInt8) (text : List Nat) (ht : ∀ c ∈ text, IsScalar c) (hl : (utf8Text text).length < 256) (tl : Bytes) :
    ∃ m, decode (0x59 :: 0x02 :: gid :: UInt8.ofNat (utf8Text text).length :: (utf8Text text ++ tl)) = .ok m ∧ m.hid = 0x5902 ∧
      m.num? "groupingIdentifier" = some (gid.toNat : Int) ∧ m.attr "name" = some (.str text) := by
  rw [decode_def (d := Reg.AssociationGrpInfo.GroupNameReport) (by decide +kernel) _ _ (by decide)]
  simp only [Reg.AssociationGrpInfo.GroupNameReport]
  step_u8 gid
  have e := C79_text text ht hl [0x59, 0x02, gid] tl
  simp only [List.length_cons, List.length_nil, Nat.reduceAdd, Nat.reduceMul] at e
  rw [show 0x59 :: 0x02 :: gid :: UInt8.ofNat (utf8Text text).length :: (utf8Text text ++ tl) =
    [0x59, 0x02, gid] ++ UInt8.ofNat (utf8Text text).length :: (utf8Text text ++ tl) from rfl, parse_last (start := 24) rfl (by simp), if_neg (by simp)]
  simp only [readField, deserVal, e, bind, Except.bind]
  exact ⟨_, rfl, rfl, rfl, rfl⟩

/-- **C79.** A group name report whose name is not the encoding of a text, or is shorter than announced, is not decoded. -/
theorem C79_group_name_rejected (gid len : UInt8) (s : Bytes)
    (hs : s.length < len.toNat ∨ ¬ ∃ text, (∀ c ∈ text, IsScalar c) ∧ s.take len.toNat = utf8Text text) :
    ∃ e, decode (0x59 :: 0x02 :: gid :: len :: s) = .error e := by
  rw [decode_def (d := Reg.AssociationGrpInfo.GroupNameReport) (by decide +kernel) _ _ (by decide)]
  simp only [Reg.AssociationGrpInfo.GroupNameReport]
  step_u8 gid
  have key : ∃ e, deserStr ⟨[0x59, 0x02, gid] ++ len :: s, 8 * [0x59, 0x02, gid].length⟩ = .error e := by
    by_cases h : s.length < len.toNat
    · simp only [deserStr, read_byte, bind, Except.bind]
      rw [Reader.value_eof (by simp; omega)]
      exact ⟨_, rfl⟩
    · have hlen : (s.take len.toNat).length = len.toNat := by rw [List.length_take]; omega
      obtain ⟨e, he⟩ := C79_rejected (s.take len.toNat) (by rw [hlen]; exact len.toNat_lt) (hs.resolve_left h) [0x59, 0x02, gid] (s.drop len.toNat)
      rw [List.take_append_drop, hlen, UInt8.ofNat_toNat] at he
      exact ⟨e, he⟩
  obtain ⟨e, he⟩ := key
  simp only [List.length_cons, List.length_nil, Nat.reduceAdd, Nat.reduceMul] at he
  rw [show 0x59 :: 0x02 :: gid :: len :: s = [0x59, 0x02, gid] ++ len :: s from rfl, parse_last (start := 24) rfl (by simp), if_neg (by simp)]
  simp only [readField, deserVal, he, bind, Except.bind]
  exact ⟨e, rfl⟩

/-- "Lö€𝄞" has one to four octets per character; the encoding of a surrogate and an overlong zero are no texts. -/
example : utf8Text [0x4C, 0xF6, 0x20AC, 0x1D11E] = [0x4C, 0xC3, 0xB6, 0xE2, 0x82, 0xAC, 0xF0, 0x9D, 0x84, 0x9E] ∧
    (∀ c ∈ [0x4C, 0xF6, 0x20AC, 0x1D11E], IsScalar c) := by
  constructor
  · decide +kernel
  · intro c hc; simp at hc; rcases hc with rfl | rfl | rfl | rfl <;> simp [IsScalar]

example : ¬ ∃ text, (∀ c ∈ text, IsScalar c) ∧ ([0xED, 0xA0, 0x80] : Bytes) = utf8Text text := by
  rintro ⟨t, h1, h2⟩
  have := decodeUtf8_ok t h1
  rw [← h2] at this
  have h3 : decodeUtf8 [0xED, 0xA0, 0x80] = .error .unicode := by decide +kernel
  rw [h3] at this; cases this

/-! ## C80 -/

/-- **C80.** `contains` answers yes exactly if the group has an entry with that node and end point; entries without end point count as end point 0. -/
theorem C80_contains (l : List (Nat × Option Nat)) (nodeId endpoint : Nat) :
    nodesContains l nodeId endpoint = true ↔ (nodeId, some endpoint) ∈ l ∨ (endpoint = 0 ∧ (nodeId, none) ∈ l) := by
  induction l with
  | nil => simp [nodesContains]
  | cons p l ih =>
    obtain ⟨n, e⟩ := p
    rw [nodesContains.eq_def]; simp only []
    cases e with
    | none =>
      by_cases h : nodeId = n ∧ endpoint = 0
      · simp [h]
      · simp only [h, if_false, ih, List.mem_cons, Prod.mk.injEq, reduceCtorEq, and_false, false_or, and_true]
        constructor
        · rintro (h | h)
          · exact Or.inl h
          · exact Or.inr ⟨h.1, Or.inr h.2⟩
        · rintro (h' | ⟨h1, h2 | h2⟩)
          · exact Or.inl h'
          · exact absurd ⟨h2, h1⟩ h
          · exact Or.inr ⟨h1, h2⟩
    | some e =>
      by_cases h : nodeId = n ∧ endpoint = e
      · simp [h]
      · simp only [h, if_false, ih, List.mem_cons, Prod.mk.injEq, reduceCtorEq, and_false, false_or, Option.some.injEq]

example : nodesContains [(1, none), (2, some 3)] 1 = true ∧ nodesContains [(1, none), (2, some 3)] 2 = false ∧
    nodesContains [(1, none), (2, some 3)] 2 3 = true := by decide

end Props

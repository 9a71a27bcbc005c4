import Verif.Lemmas.ZipOptions
/-! Helper lemmas: decoding messages attribute by attribute. -/
namespace Model
open Spec

/-- Decoding a byte string that starts with a registered command. -/
theorem decode_def {d : MsgDef} (hd : d ∈ registry) (cc cmd : UInt8) (hh : cc.toNat * 256 + cmd.toNat = d.hid) (rest : Bytes) :
    decode (cc :: cmd :: rest) =
      (parseFields d.fields (deserMsg registry (rest.length + 2)) d.fields ⟨cc :: cmd :: rest, 16⟩ [] >>= fun p =>
        match p.2.1 with
        | none => .ok (.known d.hid p.1)
        | some m => .ok (.wrap d.hid p.1 m)) := by
  have hf := find_hid d hd
  simp only [decode, decodeN, List.length_cons]
  rw [deserMsg_cons, hh, hf]
  simp only
  generalize parseFields d.fields (deserMsg registry (rest.length + 2)) d.fields ⟨cc :: cmd :: rest, 16⟩ [] = x
  cases x with
  | error e => rfl
  | ok p =>
    obtain ⟨a, c, r⟩ := p
    cases c <;> rfl

/-- The last attribute of a message, read at a byte boundary. -/
theorem parse_last {all : List Field} {f : Field} {dec : Reader → Py (Msg × Reader)} {pre tl : Bytes} {start : Nat} {acc : Dict String Val}
    (hst : start = 8 * pre.length) (hm : f.ty ≠ .message) :
    parseFields all dec [f] ⟨pre ++ tl, start⟩ acc =
      if tl = [] then .ok (acc, none, ⟨pre ++ tl, start⟩)
      else readField f acc ⟨pre ++ tl, start⟩ >>= fun p =>
        coerce (typeOf all f.name) p.1 >>= fun v => .ok (Dict.set acc f.name v, none, p.2) := by
  subst hst
  by_cases h : tl = []
  · have : (Reader.mk (pre ++ tl) (8 * pre.length)).bytesLeft = 0 := by rw [read_left, h]; rfl
    rw [if_pos h]
    simp only [parseFields, if_pos this]
  · have hb : (Reader.mk (pre ++ tl) (8 * pre.length)).bytesLeft ≠ 0 := by
      rw [read_left]
      cases tl with
      | nil => exact absurd rfl h
      | cons => simp; omega
    rw [if_neg h, parseFields_step hm hb]
    simp only [parseFields]

/-- A two byte attribute, most significant byte first. -/
theorem parse_uint16 {all fs : List Field} {f : Field} {dec : Reader → Py (Msg × Reader)} {data : Bytes} {start : Nat}
    {acc : Dict String Val} {a b : UInt8} (hp : f.parse = none) (hs : f.ty = .uint 2) (hg : data[start / 8]? = some a) (hg' : data[start / 8 + 1]? = some b) :
    parseFields all dec (f :: fs) ⟨data, start⟩ acc =
      (coerce (typeOf all f.name) (.num (.uint 2) ((a.toNat * 256 + b.toNat : Nat) : Int)) >>= fun v =>
        parseFields all dec fs ⟨data, start + 16⟩ (Dict.set acc f.name v)) := by
  obtain ⟨hlt, ha⟩ := List.getElem?_eq_some_iff.mp hg
  obtain ⟨hlt', hb⟩ := List.getElem?_eq_some_iff.mp hg'
  have hm : f.ty ≠ .message := by intro h; rw [h] at hs; cases hs
  have hbl : (Reader.mk data start).bytesLeft ≠ 0 := by simp only [Reader.bytesLeft]; omega
  rw [parseFields_step hm hbl]
  have hr : readField f acc ⟨data, start⟩ = .ok (.num (.uint 2) ((a.toNat * 256 + b.toNat : Nat) : Int), ⟨data, start + 16⟩) := by
    have e : (data.drop (start / 8)).take 2 = [a, b] := by
      rw [List.drop_eq_getElem_cons hlt, ha, List.drop_eq_getElem_cons hlt', hb]; rfl
    simp only [readField, hp, hs, deserVal, deserNum]
    rw [Reader.value_ok (r := ⟨data, start⟩) (n := 2) (by show start / 8 + 2 ≤ data.length; omega)]
    simp [bind, Except.bind, pure, Except.pure, e, Reader.advance, fromBytesBE]
  rw [hr]
  rfl

/-- Continue after one number attribute has been read. -/
macro "step_attr" : tactic => `(tactic| simp only [typeOf, List.find?, String.reduceEq, decide_true, decide_false, coerce, reduceCtorEq,
  if_true, if_false, bind, Except.bind, Dict.set, Nat.reduceAdd, Nat.reduceMod, Nat.reduceSub, Nat.reducePow])

/-- Read a one byte attribute with value `b`. -/
macro "step_u8" b:term : tactic => `(tactic| (rw [parse_uint8 (b := $b) rfl rfl rfl]; step_attr))

/-- Read a two byte attribute from the bytes `a` and `b`. -/
macro "step_u16" a:term:max b:term:max : tactic => `(tactic| (rw [parse_uint16 (a := $a) (b := $b) rfl rfl rfl rfl]; step_attr))

/-- Read `n` bits of the byte `b`. -/
macro "step_bits" n:term:max b:term:max : tactic => `(tactic| (rw [parse_bits (n := $n) (b := $b) rfl rfl rfl (by decide)]; step_attr))

/-- Every attribute of a decoded message satisfies what all readers guarantee. -/
theorem parseFields_attrs {P : Val → Prop} (hread : ∀ f acc r v r', readField f acc r = .ok (v, r') → P v)
    (hco : ∀ t v v', P v → coerce t v = .ok v' → P v') {all : List Field} {dec : Reader → Py (Msg × Reader)} :
    ∀ (fs : List Field) (r : Reader) (acc : Dict String Val) (A : Dict String Val) (c : Option Msg) (r' : Reader),
      (∀ n v, Dict.get? acc n = some v → P v) → parseFields all dec fs r acc = .ok (A, c, r') →
      ∀ n v, Dict.get? A n = some v → P v := by
  intro fs
  induction fs with
  | nil => intro r acc A c r' ha h; cases h; exact ha
  | cons f fs ih =>
    intro r acc A c r' ha h
    by_cases hb : r.bytesLeft = 0
    · simp only [parseFields, if_pos hb] at h; cases h; exact ha
    · by_cases hm : f.ty = .message
      · simp only [parseFields, if_neg hb, if_pos hm] at h
        split at h
        · obtain ⟨⟨_, _⟩, -, h⟩ := bind_ok h
          obtain ⟨⟨_, _⟩, -, h⟩ := bind_ok h
          obtain ⟨⟨_, _⟩, -, h⟩ := bind_ok h
          cases h; exact ha
        · obtain ⟨⟨_, _⟩, -, h⟩ := bind_ok h
          cases h; exact ha
      · rw [parseFields_step hm hb] at h
        obtain ⟨⟨v, r1⟩, h1, h⟩ := bind_ok h
        obtain ⟨v', h2, h⟩ := bind_ok h
        refine ih _ _ _ _ _ ?_ h
        intro n w hw
        rw [Dict.get?_set] at hw
        split at hw
        · cases hw; exact hco _ _ _ (hread _ _ _ _ _ h1) h2
        · exact ha n w hw

theorem deserMsg_attrs {P : Val → Prop} (hread : ∀ f acc r v r', readField f acc r = .ok (v, r') → P v)
    (hco : ∀ t v v', P v → coerce t v = .ok v' → P v') {k : Nat} {r r' : Reader} {m : Msg}
    (h : deserMsg registry k r = .ok (m, r')) : ∀ n v, m.attr n = some v → P v := by
  cases k with
  | zero => cases h
  | succ k =>
    rw [deserMsg] at h
    split at h
    · cases h; intro n v hv; simp [Msg.attr, Msg.attrs] at hv
    · obtain ⟨⟨cc, r1⟩, -, h⟩ := bind_ok h
      obtain ⟨⟨cmd, r2⟩, -, h⟩ := bind_ok h
      simp only at h
      split at h
      · cases h; intro n v hv; simp [Msg.attr, Msg.attrs] at hv
      · obtain ⟨⟨A, c, r3⟩, h3, h⟩ := bind_ok h
        have := parseFields_attrs hread hco _ _ _ _ _ _ (by simp) h3
        simp only at h
        cases c <;> (simp only [pure, Except.pure] at h; cases h; exact this)

theorem decode_attrs {P : Val → Prop} (hread : ∀ f acc r v r', readField f acc r = .ok (v, r') → P v)
    (hco : ∀ t v v', P v → coerce t v = .ok v' → P v') {pkt : Bytes} {m : Msg} (h : decode pkt = .ok m) :
    ∀ n v, m.attr n = some v → P v := by
  obtain ⟨⟨m', r⟩, h1, h2⟩ := bind_ok h
  cases h2
  exact deserMsg_attrs hread hco h1

/-! ## node lists -/

theorem nodeByteBits_mem (i : Nat) (b : UInt8) (n : Nat) :
    n ∈ nodeByteBits i b ↔ 8 * i < n ∧ n ≤ 8 * i + 8 ∧ b.toNat.testBit ((n - 1) % 8) = true := by
  simp only [nodeByteBits, List.mem_filterMap, List.mem_range]
  have ht : ∀ j, (b.toNat &&& 1 <<< j ≠ 0) ↔ b.toNat.testBit j = true := by
    intro j
    rw [Nat.one_shiftLeft]
    constructor
    · intro h
      cases hb : b.toNat.testBit j with
      | true => rfl
      | false =>
        exfalso
        apply h
        apply Nat.eq_of_testBit_eq
        intro k
        rw [Nat.testBit_and, Nat.testBit_two_pow]
        by_cases hk : j = k
        · subst hk; simp [hb]
        · simp [hk]
    · intro h h0
      have := congrArg (Nat.testBit · j) h0
      simp [Nat.testBit_and, h, Nat.testBit_two_pow] at this
  constructor
  · rintro ⟨j, hj, h⟩
    split at h
    · rename_i hb
      cases h
      refine ⟨by omega, by omega, ?_⟩
      rw [show (i * 8 + j + 1 - 1) % 8 = j by omega]
      exact (ht j).mp hb
    · cases h
  · rintro ⟨h1, h2, h3⟩
    refine ⟨(n - 1) % 8, by omega, ?_⟩
    rw [if_pos ((ht _).mpr h3)]
    simp only [Option.some.injEq]; omega

theorem nodeByteBits_sorted (i : Nat) (b : UInt8) : (nodeByteBits i b).Pairwise (· < ·) := by
  apply List.Pairwise.filterMap (R := (· < ·)) _ _ List.pairwise_lt_range
  intro a a' hlt x hx y hy
  split at hx <;> cases hx
  split at hy <;> cases hy
  omega

theorem deserNodeList_ok (mask : Bytes) : ∀ (i : Nat) (pre tl : Bytes),
    ∃ l, deserNodeList mask.length i ⟨pre ++ (mask ++ tl), 8 * pre.length⟩ = .ok (l, ⟨(pre ++ mask) ++ tl, 8 * (pre ++ mask).length⟩) ∧
      l.Pairwise (· < ·) ∧
      ∀ n, n ∈ l ↔ 8 * i < n ∧ ∃ b, mask[(n - 1) / 8 - i]? = some b ∧ b.toNat.testBit ((n - 1) % 8) = true := by
  induction mask with
  | nil => intro i pre tl; exact ⟨[], by simp [deserNodeList], List.Pairwise.nil, by simp⟩
  | cons b mask ih =>
    intro i pre tl
    obtain ⟨l, e, hs, hl⟩ := ih (i + 1) (pre ++ [b]) tl
    have ev := read_value pre [b] (mask ++ tl) 1 rfl
    simp only [List.singleton_append] at ev
    refine ⟨nodeByteBits i b ++ l, ?_, ?_, ?_⟩
    · simp only [List.length_cons, deserNodeList, List.cons_append, ev, bind, Except.bind, e, pure, Except.pure]
      have hb : UInt8.ofNat (fromBytesBE [b]) = b := by simp [fromBytesBE]
      rw [hb]; simp
    · rw [List.pairwise_append]
      refine ⟨nodeByteBits_sorted i b, hs, ?_⟩
      intro x hx y hy
      have h1 := ((nodeByteBits_mem i b x).mp hx).2.1
      have h2 := ((hl y).mp hy).1
      omega
    · intro n
      rw [List.mem_append, nodeByteBits_mem, hl]
      constructor
      · rintro (⟨h1, h2, h3⟩ | ⟨h1, c, h2, h3⟩)
        · refine ⟨h1, b, ?_, h3⟩
          rw [show (n - 1) / 8 - i = 0 by omega]; rfl
        · refine ⟨by omega, c, ?_, h3⟩
          rw [show (n - 1) / 8 - i = ((n - 1) / 8 - (i + 1)) + 1 by omega]
          simpa using h2
      · rintro ⟨h1, c, h2, h3⟩
        by_cases hn : n ≤ 8 * i + 8
        · left
          rw [show (n - 1) / 8 - i = 0 by omega] at h2
          simp at h2
          subst h2
          exact ⟨h1, hn, h3⟩
        · right
          refine ⟨by omega, c, ?_, h3⟩
          rw [show (n - 1) / 8 - i = ((n - 1) / 8 - (i + 1)) + 1 by omega] at h2
          simpa using h2

theorem deserNodeList_eof (mask : Bytes) : ∀ (k i : Nat) (pre : Bytes), mask.length < k →
    deserNodeList k i ⟨pre ++ mask, 8 * pre.length⟩ = .error .eof := by
  induction mask with
  | nil =>
    intro k i pre hk
    obtain ⟨k, rfl⟩ : ∃ j, k = j + 1 := ⟨k - 1, by simp at hk; omega⟩
    simp only [deserNodeList]
    rw [Reader.value_eof (by simp)]; rfl
  | cons b mask ih =>
    intro k i pre hk
    obtain ⟨k, rfl⟩ : ∃ j, k = j + 1 := ⟨k - 1, by simp at hk; omega⟩
    have ev := read_value pre [b] mask 1 rfl
    simp only [List.singleton_append] at ev
    simp only [deserNodeList, ev, bind, Except.bind, ih k (i + 1) (pre ++ [b]) (by simp at hk; omega)]

theorem deserNodeList_range : ∀ (k i : Nat) (r r' : Reader) (l : List Nat), deserNodeList k i r = .ok (l, r') →
    ∀ n ∈ l, 8 * i < n ∧ n ≤ 8 * (i + k) := by
  intro k
  induction k with
  | zero => intro i r r' l h; cases h; simp
  | succ k ih =>
    intro i r r' l h
    obtain ⟨⟨b, r1⟩, -, h⟩ := bind_ok h
    obtain ⟨⟨t, r2⟩, h2, h⟩ := bind_ok h
    cases h
    intro n hn
    rcases List.mem_append.mp hn with hn | hn
    · have := (nodeByteBits_mem i _ n).mp hn; omega
    · have := ih _ _ _ _ h2 n hn; omega

/-! ## sensors -/

theorem sensorLoop_ok : ∀ (fuel value i : Nat), value < 2 ^ fuel → (∀ j, value.testBit j = true → i + j ∈ sensorTypes) →
    ∃ l, sensorLoop fuel value i = .ok l ∧ ∀ t, t ∈ l ↔ i ≤ t ∧ value.testBit (t - i) = true := by
  intro fuel
  induction fuel with
  | zero =>
    intro value i hv _
    have : value = 0 := by simpa using hv
    subst this
    exact ⟨[], rfl, by simp⟩
  | succ fuel ih =>
    intro value i hv hk
    have hv2 : value >>> 1 < 2 ^ fuel := by rw [Nat.shiftRight_eq_div_pow]; rw [Nat.pow_succ] at hv; omega
    have hk2 : ∀ j, (value >>> 1).testBit j = true → i + 1 + j ∈ sensorTypes := by
      intro j hj
      rw [Nat.testBit_shiftRight] at hj
      have := hk (1 + j) hj
      rwa [← Nat.add_assoc] at this
    obtain ⟨l, e, hl⟩ := ih (value >>> 1) (i + 1) hv2 hk2
    have hsplit : ∀ t, (i ≤ t ∧ value.testBit (t - i) = true) ↔ (t = i ∧ value.testBit 0 = true) ∨ t ∈ l := by
      intro t
      rw [hl]
      constructor
      · rintro ⟨h1, h2⟩
        rcases Nat.eq_or_lt_of_le h1 with rfl | h1
        · left; simpa using h2
        · right
          refine ⟨h1, ?_⟩
          rw [Nat.testBit_shiftRight, show 1 + (t - (i + 1)) = t - i by omega]; exact h2
      · rintro (⟨rfl, h⟩ | ⟨h1, h2⟩)
        · simpa using h
        · refine ⟨by omega, ?_⟩
          rw [Nat.testBit_shiftRight, show 1 + (t - (i + 1)) = t - i by omega] at h2; exact h2
    have h0 : value.testBit 0 = decide (value &&& 1 = 1) := by
      rw [Nat.testBit_zero, Nat.and_one_is_mod]
    by_cases hp : value > 0
    · by_cases hb : value &&& 1 = 1
      · have hi : i ∈ sensorTypes := by
          have := hk 0 (by rw [h0]; simpa using hb)
          simpa using this
        refine ⟨i :: l, ?_, ?_⟩
        · simp only [sensorLoop, if_pos hp, if_pos hb, if_pos hi, e, bind, Except.bind, pure, Except.pure]
        · intro t
          rw [hsplit, List.mem_cons, h0]; simp [hb]
      · refine ⟨l, ?_, ?_⟩
        · simp only [sensorLoop, if_pos hp, if_neg hb, e]
        · intro t
          rw [hsplit, h0, decide_eq_false hb]; simp
    · have : value = 0 := by omega
      subst this
      refine ⟨[], rfl, by simp⟩

theorem sensorLoop_bad : ∀ (fuel value i : Nat), value < 2 ^ fuel → (∃ j, value.testBit j = true ∧ i + j ∉ sensorTypes) →
    sensorLoop fuel value i = .error .value := by
  intro fuel
  induction fuel with
  | zero =>
    rintro value i hv ⟨j, hj, -⟩
    have : value = 0 := by simpa using hv
    subst this
    simp at hj
  | succ fuel ih =>
    rintro value i hv ⟨j, hj, hn⟩
    have hv2 : value >>> 1 < 2 ^ fuel := by rw [Nat.shiftRight_eq_div_pow]; rw [Nat.pow_succ] at hv; omega
    have hp : value > 0 := by
      rcases Nat.eq_zero_or_pos value with rfl | h
      · simp at hj
      · exact h
    have h0 : value.testBit 0 = decide (value &&& 1 = 1) := by
      rw [Nat.testBit_zero, Nat.and_one_is_mod]
    cases j with
    | zero =>
      rw [h0] at hj
      have hb : value &&& 1 = 1 := by simpa using hj
      simp only [sensorLoop, if_pos hp, if_pos hb]
      rw [if_neg (by simpa using hn)]
    | succ j =>
      have e := ih (value >>> 1) (i + 1) hv2 ⟨j, by rw [Nat.testBit_shiftRight, Nat.add_comm]; exact hj, by rwa [show i + 1 + j = i + (j + 1) by omega]⟩
      simp only [sensorLoop, if_pos hp, e, bind, Except.bind]
      split
      · split <;> rfl
      · rfl

end Model

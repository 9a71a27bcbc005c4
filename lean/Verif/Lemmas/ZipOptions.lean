import Verif.Lemmas.Zip
import Verif.Spec.Zip
import Verif.Spec.Bridge
/-! Helper lemmas: header options of Z/IP packets. -/
namespace Model
open Spec

theorem read_byte (pre tl : Bytes) (b : UInt8) :
    (Reader.mk (pre ++ b :: tl) (8 * pre.length)).byte = .ok (b, ⟨(pre ++ [b]) ++ tl, 8 * (pre ++ [b]).length⟩) := by
  rw [Reader.byte_ok (by simp)]
  simp [Reader.advance, List.getElem_append_right]; omega

theorem read_value (pre v tl : Bytes) (n : Nat) (hn : n = v.length) :
    (Reader.mk (pre ++ (v ++ tl)) (8 * pre.length)).value n = .ok (v, ⟨(pre ++ v) ++ tl, 8 * (pre ++ v).length⟩) := by
  subst hn
  rw [Reader.value_ok (by simp)]
  have : 8 * pre.length / 8 = pre.length := by omega
  simp [Reader.advance, this]; omega

theorem read_left (pre tl : Bytes) : (Reader.mk (pre ++ tl) (8 * pre.length)).bytesLeft = tl.length := by
  simp only [Reader.bytesLeft, List.length_append]; omega

theorem read_bits_hi (pre tl : Bytes) (b : UInt8) (n : Nat) (hn : n ≤ 8) :
    (Reader.mk (pre ++ b :: tl) (8 * pre.length)).bits n = .ok (b.toNat / 2 ^ (8 - n) % 2 ^ n, ⟨pre ++ b :: tl, 8 * pre.length + n⟩) := by
  have h0 : 8 * pre.length / 8 = pre.length := by omega
  have hlt : (Reader.mk (pre ++ b :: tl) (8 * pre.length)).start / 8 < (Reader.mk (pre ++ b :: tl) (8 * pre.length)).data.length := by
    simp [h0]
  rw [Reader.bits_ok hlt (by simp; omega)]
  simp only [if_true, Reader.advance, Except.ok.injEq, Prod.mk.injEq, and_true]
  rw [Reader.rest_take hlt (by simp; omega)]
  simp only [h0, List.getElem_append_right (Nat.le_refl _), Nat.sub_self, List.getElem_cons_zero, Nat.mul_mod_right, List.drop_zero]
  have e1 : toBits 8 b.toNat = toBits n (b.toNat / 2 ^ (8 - n)) ++ toBits (8 - n) b.toNat := by
    rw [← toBits_add, show n + (8 - n) = 8 by omega]
  rw [e1, List.take_append_of_le_length (by simp), List.take_of_length_le (by simp), ofBits_toBits]

theorem read_bits_lo (pre tl : Bytes) (b : UInt8) (s n : Nat) (hn : s + n = 8) (hs : 0 < n) :
    (Reader.mk (pre ++ b :: tl) (8 * pre.length + s)).bits n =
      .ok (b.toNat % 2 ^ n, ⟨(pre ++ [b]) ++ tl, 8 * (pre ++ [b]).length⟩) := by
  have h0 : (8 * pre.length + s) / 8 = pre.length := by omega
  have hm : (8 * pre.length + s) % 8 = s := by omega
  have hlt : (Reader.mk (pre ++ b :: tl) (8 * pre.length + s)).start / 8 < (Reader.mk (pre ++ b :: tl) (8 * pre.length + s)).data.length := by
    simp [h0]
  rw [Reader.bits_ok hlt (by simp [hm]; omega)]
  simp only [if_true, Reader.advance, Except.ok.injEq, Prod.mk.injEq]
  rw [Reader.rest_take hlt (by simp [hm]; omega)]
  simp only [h0, hm, List.getElem_append_right (Nat.le_refl _), Nat.sub_self, List.getElem_cons_zero]
  have e1 : toBits 8 b.toNat = toBits s (b.toNat / 2 ^ n) ++ toBits n b.toNat := by
    rw [← toBits_add, hn]
  rw [e1, List.drop_append_of_le_length (by simp), List.drop_eq_nil_of_le (by simp), List.nil_append,
    List.take_of_length_le (by simp), ofBits_toBits]
  simp; omega

theorem toNat_length {n : Nat} (h : n < 256) : (UInt8.ofNat n).toNat = n := by
  simp [UInt8.toNat_ofNat']; omega

theorem new_eq (b : Bytes) : Reader.new b = ⟨[] ++ b, 8 * ([] : Bytes).length⟩ := rfl

theorem parseNums_bytes (fs : List (String × FT)) (pre tl : Bytes) (acc : Dict String Int) (hu : ∀ f ∈ fs, f.2 = .uint 1)
    (hd : (fs.map (·.1)).Nodup) (ha : ∀ f ∈ fs, Dict.get? acc f.1 = none) :
    ∃ r, parseNums fs ⟨pre ++ tl, 8 * pre.length⟩ acc = .ok (acc ++ ((fs.map (·.1)).zip tl).map (fun p => (p.1, (p.2.toNat : Int))), r) := by
  induction fs generalizing pre tl acc with
  | nil => exact ⟨_, by simp [parseNums]; rfl⟩
  | cons f fs ih =>
    obtain ⟨n, t⟩ := f
    have : t = .uint 1 := hu (n, t) (by simp)
    subst this
    cases tl with
    | nil => exact ⟨_, by rw [parseNums, read_left, if_pos (by simp)]; simp; rfl⟩
    | cons b tl =>
      have e := read_value pre [b] tl 1 rfl
      simp only [List.singleton_append] at e
      have hset : Dict.set acc n (b.toNat : Int) = acc ++ [(n, (b.toNat : Int))] := by
        have := ha (n, .uint 1) (by simp)
        clear ih hd ha hu e
        induction acc with
        | nil => rfl
        | cons q acc ih2 =>
          obtain ⟨k, x⟩ := q
          simp only [Dict.get?] at this
          split at this
          · cases this
          · rename_i hk
            simp only [Dict.set, if_neg hk, ih2 this, List.cons_append]
      simp only [List.map_cons, List.nodup_cons] at hd
      obtain ⟨r, h⟩ := ih (pre ++ [b]) tl (Dict.set acc n (b.toNat : Int)) (fun f hf => hu f (by simp [hf])) hd.2 (by
        intro f hf
        rw [Dict.get?_set, if_neg (by intro he; exact hd.1 (he ▸ List.mem_map_of_mem hf))]
        exact ha f (by simp [hf]))
      refine ⟨r, ?_⟩
      rw [parseNums, read_left, if_neg (by simp; omega)]
      simp only [deserNum, e, bind, Except.bind, pure, Except.pure]
      have hb : (fromBytesBE [b] : Int) = b.toNat := by simp [fromBytesBE]
      rw [hb, h, hset]
      simp

theorem loadIME_ok (t : UInt8) (v : Bytes) (h1 : t = 1 → 2 ≤ v.length) (h2 : t = 0 ∨ t = 4 ∨ t = 5 → 1 ≤ v.length) :
    loadIME t.toNat v = .ok (entryMeaning t.toNat v) := by
  have key : ∀ k : UInt8, t.toNat = k.toNat → t = k := fun k h => UInt8.toNat_inj.mp h
  have hv : ∀ n, n ≤ v.length → ∃ r, (Reader.new v).value n = .ok (v.take n, r) := by
    intro n hn
    rw [Reader.value_ok (by simpa [Reader.new] using hn)]
    exact ⟨(Reader.new v).advance (n * 8), by simp [Reader.new]⟩
  unfold loadIME entryMeaning
  split
  · rename_i h
    obtain ⟨r, e⟩ := hv 1 (h2 (h.imp (key 0) (Or.imp (key 4) (key 5))))
    simp [e, bind, Except.bind, pure, Except.pure, fromBytesBE_eq]
  · split
    · rename_i h
      obtain ⟨r, e⟩ := hv 2 (h1 (key 1 h))
      simp [e, bind, Except.bind, pure, Except.pure, fromBytesBE_eq]
    · split
      · obtain ⟨r, e⟩ := parseNums_bytes routeFields [] v [] (by decide) (by decide) (by intro f _; rfl)
        rw [new_eq, e]
        rfl
      · rfl

theorem maintLoop_ok (l : List (UInt8 × Bytes)) (fuel : Nat) (pre : Bytes) (acc : Dict Nat IMEVal)
    (hl : ∀ e ∈ l, e.1.toNat ≤ 8 ∧ e.2.length < 256 ∧ (e.1 = 1 → 2 ≤ e.2.length) ∧ (e.1 = 0 ∨ e.1 = 4 ∨ e.1 = 5 → 1 ≤ e.2.length))
    (hf : (entriesWire l).length < fuel) :
    ∃ d, maintLoop fuel ⟨pre ++ entriesWire l, 8 * pre.length⟩ acc = .ok d ∧
      ∀ ty, Dict.get? d ty = match lastIME ty l with
        | some v => some (entryMeaning ty v)
        | none => Dict.get? acc ty := by
  induction l generalizing fuel pre acc with
  | nil =>
    obtain ⟨f, rfl⟩ : ∃ f, fuel = f + 1 := ⟨fuel - 1, by omega⟩
    exact ⟨acc, by rw [maintLoop, read_left, if_pos (by simp [entriesWire])], fun ty => rfl⟩
  | cons e l ih =>
    obtain ⟨t, v⟩ := e
    obtain ⟨f, rfl⟩ : ∃ f, fuel = f + 1 := ⟨fuel - 1, by omega⟩
    obtain ⟨h8, h256, h1, h2⟩ := hl (t, v) (by simp)
    simp only at h8 h256 h1 h2
    simp only [maintLoop, read_left, entriesWire]
    rw [if_neg (by simp; omega), read_byte]
    simp only [bind, Except.bind]
    rw [if_neg (by omega), read_byte]
    simp only
    rw [read_value _ v _ _ (toNat_length h256)]
    simp only [loadIME_ok t v h1 h2]
    obtain ⟨d, hd, hg⟩ := ih f (pre ++ [t] ++ [UInt8.ofNat v.length] ++ v) (Dict.set acc t.toNat (entryMeaning t.toNat v)) (fun e he => hl e (by simp [he]))
      (by simp [entriesWire] at hf; omega)
    refine ⟨d, hd, ?_⟩
    intro ty
    rw [hg ty]
    simp only [lastIME]
    cases lastIME ty l with
    | some x => rfl
    | none =>
      rw [Dict.get?_set]
      by_cases he : t.toNat = ty
      · subst he; simp
      · simp [he, fun h : ty = t.toNat => he h.symm]

theorem encap_ok (p : Bytes) : ∃ d r, parseNums encapFields (Reader.new p) [] = .ok (d, r) ∧
    Dict.get? d "security2SecurityClass" = p[0]?.map (fun b => (b.toNat : Int)) ∧
    Dict.get? d "crc16" = p[1]?.map (fun b => ((b.toNat % 2 : Nat) : Int)) := by
  simp only [encapFields, parseNums, new_eq, read_left]
  cases p with
  | nil => exact ⟨_, _, rfl, rfl, rfl⟩
  | cons a p =>
    rw [if_neg (by simp; omega)]
    simp only [deserNum, read_bits_hi [] p a 8 (by omega), bind, Except.bind, pure, Except.pure]
    cases p with
    | nil => rw [if_pos (by simp [Reader.bytesLeft])]; exact ⟨_, _, rfl, by simp [Dict.set, Dict.get?, Nat.mod_eq_of_lt (UInt8.toNat_lt a)], by simp [Dict.set, Dict.get?]⟩
    | cons b p =>
      rw [if_neg (by simp [Reader.bytesLeft]; omega)]
      have e := read_bits_hi [a] p b 7 (by omega)
      simp only [List.singleton_append, List.length_singleton] at e
      simp only [List.nil_append, List.length_nil, Nat.mul_zero, Nat.zero_add]
      rw [e]
      simp only
      rw [if_neg (by simp [Reader.bytesLeft]; omega)]
      have e2 := read_bits_lo [a] p b 7 1 (by omega) (by omega)
      simp only [List.singleton_append, List.length_singleton] at e2
      rw [e2]
      refine ⟨_, _, rfl, ?_, ?_⟩
      · simp [Dict.set, Dict.get?, Nat.mod_eq_of_lt (UInt8.toNat_lt a)]
      · simp [Dict.set, Dict.get?]

/-- Type and critical bit of an option's first byte. -/
theorem read_option_head (pre tl : Bytes) (b : UInt8) :
    parseOption ⟨pre ++ b :: tl, 8 * pre.length⟩ =
      if tl = [] then .ok ((b.toNat % 128, .empty), ⟨(pre ++ [b]) ++ tl, 8 * (pre ++ [b]).length⟩)
      else (do
        let (v, r) ← parseOptionData (b.toNat % 128) ⟨(pre ++ [b]) ++ tl, 8 * (pre ++ [b]).length⟩
        pure ((b.toNat % 128, v), r)) := by
  simp only [parseOption]
  rw [read_bits_hi _ _ _ 1 (by omega)]
  simp only [bind, Except.bind]
  rw [read_bits_lo _ _ _ 1 7 (by omega) (by omega)]
  simp only [read_left]
  cases tl with
  | nil => simp [pure, Except.pure]
  | cons c tl => rw [if_neg (by simp; omega)]; simp

theorem fromBytesBEs_eq (b : Bytes) (hb : b ≠ []) : fromBytesBEs b = signedOf (8 * b.length) (beNat b) := by
  unfold fromBytesBEs signedOf
  rw [fromBytesBE_eq]
  have : b.isEmpty = false := by cases b <;> simp_all
  have hl : 0 < b.length := by cases b <;> simp_all
  have hp : 2 ^ (8 * b.length) = 2 * 2 ^ (8 * b.length - 1) := by
    rw [← Nat.pow_succ']; congr 1; omega
  simp only [this, Bool.false_eq_true, if_false]
  by_cases h : beNat b < 2 ^ (8 * b.length - 1)
  · rw [if_pos h, if_pos (by omega)]
  · rw [if_neg h, if_neg (by omega)]

theorem parse_option (pre tl : Bytes) (c : Bool) (o : HdrOption) (ho : o.WellFormed) :
    ∃ v, parseOption ⟨pre ++ (optionWire c o ++ tl), 8 * pre.length⟩ =
        .ok ((o.code.toNat, v), ⟨(pre ++ optionWire c o) ++ tl, 8 * (pre ++ optionWire c o).length⟩) ∧
      (∀ b0 b1 b2, o = .delay b0 b1 b2 → v = .delay (signedOf 24 (beNat [b0, b1, b2]))) ∧
      (∀ l, o = .maintenance l → ∃ d, v = .maint d ∧ ∀ ty, Dict.get? d ty = (lastIME ty l).map (entryMeaning ty)) ∧
      ∀ p, o = .encapsulation p → ∃ d, v = .encap d ∧ Dict.get? d "security2SecurityClass" = p[0]?.map (fun b => (b.toNat : Int)) ∧
        Dict.get? d "crc16" = p[1]?.map (fun b => ((b.toNat % 2 : Nat) : Int)) := by
  have hcode : ((if c then 0x80 else 0) + o.code).toNat % 128 = o.code.toNat := by
    cases o <;> cases c <;> simp [HdrOption.code]
  simp only [optionWire, List.cons_append]
  rw [read_option_head, if_neg (by simp), hcode]
  simp only [parseOptionData]
  rw [read_byte]
  simp only [bind, Except.bind]
  rw [read_value _ _ _ _ (toNat_length ho.1)]
  cases o with
  | delay b0 b1 b2 =>
    simp only [HdrOption.code, HdrOption.payload]
    have e : (Reader.new [b0, b1, b2]).value 3 = .ok ([b0, b1, b2], ⟨[b0, b1, b2], 24⟩) := by
      rw [Reader.value_ok (by simp [Reader.new])]; simp [Reader.new, Reader.advance]
    refine ⟨.delay (fromBytesBEs [b0, b1, b2]), ?_, ?_, by rintro _ ⟨⟩, by rintro _ ⟨⟩⟩
    · simp [e, pure, Except.pure]
    · rintro _ _ _ ⟨⟩
      rw [fromBytesBEs_eq _ (by simp)]; rfl
  | maintenance l =>
    obtain ⟨d, e, hg⟩ := maintLoop_ok l ((entriesWire l).length + 1) [] [] ho.2 (by omega)
    refine ⟨.maint d, ?_, by rintro _ _ _ ⟨⟩, ?_, by rintro _ ⟨⟩⟩
    rotate_left
    · rintro _ ⟨⟩
      refine ⟨d, rfl, fun ty => ?_⟩
      rw [hg ty]
      cases lastIME ty l <;> rfl
    simp only [HdrOption.code, HdrOption.payload]
    rw [← new_eq] at e
    simp [e, pure, Except.pure]
  | encapsulation p =>
    obtain ⟨d, r, e, g1, g2⟩ := encap_ok p
    refine ⟨.encap d, ?_, by rintro _ _ _ ⟨⟩, by rintro _ ⟨⟩, by rintro _ ⟨⟩; exact ⟨d, rfl, g1, g2⟩⟩
    simp only [HdrOption.code, HdrOption.payload]
    simp [e, pure, Except.pure]

theorem optionLoop_prefix (os : List (Bool × HdrOption)) (pre tl : Bytes) (fuel : Nat) (acc : Dict Nat OptVal)
    (ho : ∀ o ∈ os, o.2.WellFormed) (hf : (optionsWire os ++ tl).length < fuel) :
    ∃ d fuel', optionLoop fuel ⟨pre ++ (optionsWire os ++ tl), 8 * pre.length⟩ acc =
        optionLoop fuel' ⟨(pre ++ optionsWire os) ++ tl, 8 * (pre ++ optionsWire os).length⟩ d ∧ tl.length < fuel' ∧
      (acc.all (fun p => 1 ≤ p.1 && p.1 ≤ 5) = true → d.all (fun p => 1 ≤ p.1 && p.1 ≤ 5) = true) ∧
      (Dict.get? d 1 = if os.any (fun p => p.2.code = 1) then some (.delay (announcedDelay os)) else Dict.get? acc 1) ∧
      (match lastReport os with
        | some l => ∃ x, Dict.get? d 3 = some (.maint x) ∧ ∀ ty, Dict.get? x ty = (lastIME ty l).map (entryMeaning ty)
        | none => Dict.get? d 3 = Dict.get? acc 3) ∧
      (match lastEncapsulation os with
        | some p => ∃ x, Dict.get? d 4 = some (.encap x) ∧ Dict.get? x "security2SecurityClass" = p[0]?.map (fun b => (b.toNat : Int)) ∧
            Dict.get? x "crc16" = p[1]?.map (fun b => ((b.toNat % 2 : Nat) : Int))
        | none => Dict.get? d 4 = Dict.get? acc 4) := by
  induction os generalizing pre fuel acc with
  | nil => exact ⟨acc, fuel, by simp [optionsWire], by simpa [optionsWire] using hf, id, by simp, rfl, rfl⟩
  | cons p os ih =>
    obtain ⟨c, o⟩ := p
    obtain ⟨f, rfl⟩ : ∃ f, fuel = f + 1 := ⟨fuel - 1, by omega⟩
    obtain ⟨v, e, hv, hv2, hv3⟩ := parse_option pre (optionsWire os ++ tl) c o (ho (c, o) (by simp))
    obtain ⟨d, fuel', h1, h2, h3, h4, h5, h6⟩ := ih (pre ++ optionWire c o) f (Dict.set acc o.code.toNat v)
      (fun o ho' => ho o (by simp [ho'])) (by simp [optionsWire, optionWire] at hf ⊢; omega)
    refine ⟨d, fuel', ?_, h2, ?_, ?_, ?_, ?_⟩
    · simp only [optionsWire, List.append_assoc] at h1 e ⊢
      rw [optionLoop, read_left, if_pos (by simp [optionWire]; omega), e]
      simp only [bind, Except.bind]
      rw [h1]
    · intro ha
      apply h3
      rw [List.all_eq_true] at ha ⊢
      intro q hq
      have hk : q.1 ∈ Dict.keys (Dict.set acc o.code.toNat v) := List.mem_map_of_mem hq
      rw [Dict.keys_set] at hk
      have hin : q.1 = o.code.toNat ∨ q.1 ∈ Dict.keys acc := by
        split at hk
        · exact Or.inr hk
        · simpa [or_comm] using hk
      rcases hin with h | h
      · rw [h]; cases o <;> rfl
      · obtain ⟨q', hq', e⟩ := List.mem_map.mp h
        have := ha q' hq'
        rw [e] at this; exact this
    · rw [h4]
      simp only [List.any_cons, announcedDelay]
      by_cases hany : os.any (fun p => p.2.code = 1) = true
      · simp [hany]
      · rw [if_neg hany, if_neg hany, Dict.get?_set]
        have hany' : (os.any fun p => decide (p.snd.code = 1)) = false := by simpa using hany
        simp only [hany', Bool.or_false]
        cases o with
        | delay b0 b1 b2 => simp [HdrOption.code, hv b0 b1 b2 rfl]
        | maintenance l => simp [HdrOption.code]
        | encapsulation l => simp [HdrOption.code]
    · simp only [lastReport]
      cases hr : lastReport os with
      | some l => rw [hr] at h5; exact h5
      | none =>
        rw [hr] at h5
        simp only at h5
        rw [Dict.get?_set] at h5
        cases o with
        | delay b0 b1 b2 => simpa [HdrOption.code] using h5
        | encapsulation p => simpa [HdrOption.code] using h5
        | maintenance l =>
          obtain ⟨x, hx, hx2⟩ := hv2 l rfl
          exact ⟨x, by rw [h5, ← hx]; simp [HdrOption.code], hx2⟩
    · simp only [lastEncapsulation]
      cases hr : lastEncapsulation os with
      | some l => rw [hr] at h6; exact h6
      | none =>
        rw [hr] at h6
        simp only at h6
        rw [Dict.get?_set] at h6
        cases o with
        | delay b0 b1 b2 => simpa [HdrOption.code] using h6
        | maintenance l => simpa [HdrOption.code] using h6
        | encapsulation p =>
          obtain ⟨x, hx, hx2⟩ := hv3 p rfl
          exact ⟨x, by rw [h6, ← hx]; simp [HdrOption.code], hx2⟩

theorem optionLoop_ok (os : List (Bool × HdrOption)) (fuel : Nat) (ho : ∀ o ∈ os, o.2.WellFormed) (hf : (optionsWire os).length < fuel) :
    ∃ d, optionLoop fuel (Reader.new (optionsWire os)) [] = .ok d ∧ d.all (fun p => 1 ≤ p.1 && p.1 ≤ 5) = true ∧
      expectedDelay d = .ok (announcedDelay os) ∧
      (match lastReport os with
        | some l => ∃ x, Dict.get? d 3 = some (.maint x) ∧ ∀ ty, Dict.get? x ty = (lastIME ty l).map (entryMeaning ty)
        | none => Dict.get? d 3 = none) ∧
      (match lastEncapsulation os with
        | some p => ∃ x, Dict.get? d 4 = some (.encap x) ∧ Dict.get? x "security2SecurityClass" = p[0]?.map (fun b => (b.toNat : Int)) ∧
            Dict.get? x "crc16" = p[1]?.map (fun b => ((b.toNat % 2 : Nat) : Int))
        | none => Dict.get? d 4 = none) := by
  obtain ⟨d, f', h1, h2, h3, h4, h5, h6⟩ := optionLoop_prefix os [] [] fuel [] ho (by simpa using hf)
  simp only [List.nil_append, List.append_nil] at h1 h2
  obtain ⟨f, rfl⟩ : ∃ f, f' = f + 1 := ⟨f' - 1, by simp at h2; omega⟩
  have hl : (Reader.mk (optionsWire os) (8 * (optionsWire os).length)).bytesLeft = 0 := by simp [Reader.bytesLeft]
  simp only [List.length_nil, Nat.mul_zero] at h1
  rw [optionLoop, if_neg (by rw [hl]; omega)] at h1
  refine ⟨d, h1, h3 rfl, ?_, h5, h6⟩
  simp only [expectedDelay, h4]
  cases hany : os.any (fun p => p.2.code = 1) with
  | true => rfl
  | false =>
    have : announcedDelay os = 0 := by
      cases os with
      | nil => rfl
      | cons p os =>
        obtain ⟨c, o⟩ := p
        simp only [List.any_cons, Bool.or_eq_false_iff] at hany
        simp only [announcedDelay, hany.2, Bool.false_eq_true, if_false]
        cases o <;> simp [HdrOption.code] at hany ⊢
    simp [Dict.get?, this]

/-- An unsupported option, or one that is longer than the extension, after any well-formed options. -/
theorem optionLoop_bad (os : List (Bool × HdrOption)) (b len : UInt8) (rest : Bytes) (fuel : Nat) (ho : ∀ o ∈ os, o.2.WellFormed)
    (hf : (optionsWire os ++ b :: len :: rest).length < fuel)
    (hb : b.toNat % 128 ∉ [1, 3, 4] ∨ rest.length < len.toNat) :
    ∃ e, optionLoop fuel (Reader.new (optionsWire os ++ b :: len :: rest)) [] = .error e := by
  obtain ⟨d, f', h1, h2, h3, h4, -⟩ := optionLoop_prefix os [] (b :: len :: rest) fuel [] ho hf
  obtain ⟨f, rfl⟩ : ∃ f, f' = f + 1 := ⟨f' - 1, by simp at h2; omega⟩
  rw [new_eq, h1, optionLoop, read_left, if_pos (by simp; omega), read_option_head, if_neg (by simp)]
  simp only [parseOptionData]
  rw [read_byte]
  simp only [bind, Except.bind]
  by_cases hl : rest.length < len.toNat
  · rw [Reader.value_eof (by simp; omega)]
    exact ⟨_, rfl⟩
  · rw [Reader.value_ok (by simp; omega)]
    have hb' : b.toNat % 128 ∉ [1, 3, 4] := hb.resolve_right hl
    simp only [List.mem_cons, List.not_mem_nil, or_false, not_or] at hb'
    simp only [hb'.1, hb'.2.1, hb'.2.2, if_false]
    exact ⟨_, rfl⟩

end Model

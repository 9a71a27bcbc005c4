import Verif.Lemmas.Shift
/-! Helper lemmas: decoding Z/IP packets. -/
namespace Model
open Spec

theorem parse_bits {all fs : List Field} {f : Field} {dec : Reader → Py (Msg × Reader)} {data : Bytes} {start n : Nat}
    {acc : Dict String Val} {b : UInt8} (hp : f.parse = none) (hs : subBits f.ty = some n) (hg : data[start / 8]? = some b)
    (hn : start % 8 + n ≤ 8) :
    parseFields all dec (f :: fs) ⟨data, start⟩ acc =
      (coerce (typeOf all f.name) (.num f.ty ((b.toNat / 2 ^ (8 - start % 8 - n) % 2 ^ n : Nat) : Int)) >>= fun v =>
        parseFields all dec fs ⟨data, start + n⟩ (Dict.set acc f.name v)) := by
  have hlt : start / 8 < data.length := by
    rcases Nat.lt_or_ge (start / 8) data.length with h | h
    · exact h
    · rw [List.getElem?_eq_none h] at hg; cases hg
  have hb : data[start / 8] = b := by rw [List.getElem?_eq_getElem hlt] at hg; exact Option.some.inj hg
  have hm : f.ty ≠ .message := by intro h; rw [h] at hs; cases hs
  have hbl : (Reader.mk data start).bytesLeft ≠ 0 := by simp only [Reader.bytesLeft]; omega
  rw [parseFields_step hm hbl]
  have hbits : (Reader.mk data start).bits n = .ok (b.toNat / 2 ^ (8 - start % 8 - n) % 2 ^ n, ⟨data, start + n⟩) := by
    rw [Reader.bits_ok hlt hn]
    simp only [if_true, Reader.advance, Except.ok.injEq, Prod.mk.injEq, and_true]
    rw [Reader.rest_take hlt hn]
    simp only [hb]
    have e1 : toBits 8 b.toNat = toBits (start % 8) (b.toNat / 2 ^ (8 - start % 8)) ++
        (toBits n (b.toNat / 2 ^ (8 - start % 8 - n)) ++ toBits (8 - start % 8 - n) b.toNat) := by
      rw [← toBits_add, show n + (8 - start % 8 - n) = 8 - start % 8 by omega, ← toBits_add,
        show start % 8 + (8 - start % 8) = 8 by omega]
    rw [e1, List.drop_append_of_le_length (by simp), List.drop_eq_nil_of_le (by simp), List.nil_append,
      List.take_append_of_le_length (by simp), List.take_of_length_le (by simp), ofBits_toBits]
  have hr : readField f acc ⟨data, start⟩ = .ok (.num f.ty ((b.toNat / 2 ^ (8 - start % 8 - n) % 2 ^ n : Nat) : Int), ⟨data, start + n⟩) := by
    obtain ⟨name, ty, ph, ch⟩ := f
    simp only at hp hs
    subst hp
    simp only [readField]
    cases ty <;> simp only [subBits, reduceCtorEq, Option.some.injEq] at hs <;> subst hs <;>
      simp only [deserVal, deserNum, hbits, bind, Except.bind, pure, Except.pure]
  rw [hr]
  rfl

theorem parse_uint8 {all fs : List Field} {f : Field} {dec : Reader → Py (Msg × Reader)} {data : Bytes} {start : Nat}
    {acc : Dict String Val} {b : UInt8} (hp : f.parse = none) (hs : f.ty = .uint 1) (hg : data[start / 8]? = some b) :
    parseFields all dec (f :: fs) ⟨data, start⟩ acc =
      (coerce (typeOf all f.name) (.num (.uint 1) (b.toNat : Int)) >>= fun v =>
        parseFields all dec fs ⟨data, start + 8⟩ (Dict.set acc f.name v)) := by
  have hlt : start / 8 < data.length := by
    rcases Nat.lt_or_ge (start / 8) data.length with h | h
    · exact h
    · rw [List.getElem?_eq_none h] at hg; cases hg
  have hb : data[start / 8] = b := by rw [List.getElem?_eq_getElem hlt] at hg; exact Option.some.inj hg
  have hm : f.ty ≠ .message := by intro h; rw [h] at hs; cases hs
  have hbl : (Reader.mk data start).bytesLeft ≠ 0 := by simp only [Reader.bytesLeft]; omega
  rw [parseFields_step hm hbl]
  have hr : readField f acc ⟨data, start⟩ = .ok (.num (.uint 1) (b.toNat : Int), ⟨data, start + 8⟩) := by
    have e : (data.drop (start / 8)).take 1 = [b] := by
      rw [List.drop_eq_getElem_cons hlt, hb]; rfl
    simp only [readField, hp, hs, deserVal, deserNum]
    rw [Reader.value_ok (r := ⟨data, start⟩) (n := 1) (by show start / 8 + 1 ≤ data.length; omega)]
    simp [bind, Except.bind, pure, Except.pure, e, Reader.advance, fromBytesBE]
  rw [hr]
  rfl

/-- the fixed attributes of a Z/IP packet with the given header bytes -/
def zipAttrs (f0 f1 seq s d : UInt8) : Dict String Val :=
  [("ackRequest", .num .flag (f0.toNat / 128 % 2 : Nat)), ("ackResponse", .num .flag (f0.toNat / 64 % 2 : Nat)),
   ("nackResponse", .num .flag (f0.toNat / 32 % 2 : Nat)), ("nackWaiting", .num .flag (f0.toNat / 16 % 2 : Nat)),
   ("nackQueueFull", .num .flag (f0.toNat / 8 % 2 : Nat)), ("nackOptionError", .num .flag (f0.toNat / 4 % 2 : Nat)),
   ("_", .num (.reserved 2) (f1.toNat % 16 : Nat)), ("headerExtIncluded", .num .flag (f1.toNat / 128 % 2 : Nat)),
   ("zwCmdIncluded", .num .flag (f1.toNat / 64 % 2 : Nat)), ("moreInformation", .num .flag (f1.toNat / 32 % 2 : Nat)),
   ("secureOrigin", .num .flag (f1.toNat / 16 % 2 : Nat)), ("seqNo", .num (.uint 1) seq.toNat),
   ("-", .num (.reserved 1) (d.toNat / 128 % 2 : Nat)), ("sourceEP", .num (.ubits 7) (s.toNat % 128 : Nat)),
   ("destEP", .num (.ubits 7) (d.toNat % 128 : Nat))]

/-- the last two attributes -/
def zipTail : List Field := [⟨"headerExtension", .hdr, some .headerExtension, none⟩, ⟨"command", .message, none, none⟩]

theorem zip_fixed (dec : Reader → Py (Msg × Reader)) (f0 f1 seq s d : UInt8) (rest : Bytes) :
    parseFields Reg.Zip.ZipPacket.fields dec Reg.Zip.ZipPacket.fields ⟨0x23 :: 0x02 :: f0 :: f1 :: seq :: s :: d :: rest, 16⟩ [] =
      parseFields Reg.Zip.ZipPacket.fields dec zipTail ⟨0x23 :: 0x02 :: f0 :: f1 :: seq :: s :: d :: rest, 56⟩
        (zipAttrs f0 f1 seq s d) := by
  generalize hall : Reg.Zip.ZipPacket.fields = all
  have ht : ∀ n t, (Reg.Zip.ZipPacket.fields.find? (fun f => f.name = n)).map Field.ty = some t → typeOf all n = t := by
    intro n t h
    rw [← hall, typeOf]
    revert h
    cases Reg.Zip.ZipPacket.fields.find? (fun f => decide (f.name = n)) with
    | none => simp
    | some g => simp
  conv => lhs; arg 3; rw [← hall]
  simp only [Reg.Zip.ZipPacket]
  rw [parse_bits (n := 1) (b := f0) rfl rfl rfl (by decide), ht _ .flag (by decide)]
  simp only [coerce, if_true, bind, Except.bind]
  rw [parse_bits (n := 1) (b := f0) rfl rfl rfl (by decide), ht _ .flag (by decide)]
  simp only [coerce, if_true, bind, Except.bind]
  rw [parse_bits (n := 1) (b := f0) rfl rfl rfl (by decide), ht _ .flag (by decide)]
  simp only [coerce, if_true, bind, Except.bind]
  rw [parse_bits (n := 1) (b := f0) rfl rfl rfl (by decide), ht _ .flag (by decide)]
  simp only [coerce, if_true, bind, Except.bind]
  rw [parse_bits (n := 1) (b := f0) rfl rfl rfl (by decide), ht _ .flag (by decide)]
  simp only [coerce, if_true, bind, Except.bind]
  rw [parse_bits (n := 1) (b := f0) rfl rfl rfl (by decide), ht _ .flag (by decide)]
  simp only [coerce, if_true, bind, Except.bind]
  rw [parse_bits (n := 2) (b := f0) rfl rfl rfl (by decide), ht _ (.reserved 2) (by decide)]
  simp only [coerce, reduceCtorEq, if_false, bind, Except.bind]
  rw [parse_bits (n := 1) (b := f1) rfl rfl rfl (by decide), ht _ .flag (by decide)]
  simp only [coerce, if_true, bind, Except.bind]
  rw [parse_bits (n := 1) (b := f1) rfl rfl rfl (by decide), ht _ .flag (by decide)]
  simp only [coerce, if_true, bind, Except.bind]
  rw [parse_bits (n := 1) (b := f1) rfl rfl rfl (by decide), ht _ .flag (by decide)]
  simp only [coerce, if_true, bind, Except.bind]
  rw [parse_bits (n := 1) (b := f1) rfl rfl rfl (by decide), ht _ .flag (by decide)]
  simp only [coerce, if_true, bind, Except.bind]
  rw [parse_bits (n := 4) (b := f1) rfl rfl rfl (by decide), ht _ (.reserved 2) (by decide)]
  simp only [coerce, reduceCtorEq, if_false, bind, Except.bind]
  rw [parse_uint8 (b := seq) rfl rfl rfl, ht _ (.uint 1) (by decide)]
  simp only [coerce, reduceCtorEq, if_false, bind, Except.bind]
  rw [parse_bits (n := 1) (b := s) rfl rfl rfl (by decide), ht _ (.reserved 1) (by decide)]
  simp only [coerce, reduceCtorEq, if_false, bind, Except.bind]
  rw [parse_bits (n := 7) (b := s) rfl rfl rfl (by decide), ht _ (.ubits 7) (by decide)]
  simp only [coerce, reduceCtorEq, if_false, bind, Except.bind]
  rw [parse_bits (n := 1) (b := d) rfl rfl rfl (by decide), ht _ (.reserved 1) (by decide)]
  simp only [coerce, reduceCtorEq, if_false, bind, Except.bind]
  rw [parse_bits (n := 7) (b := d) rfl rfl rfl (by decide), ht _ (.ubits 7) (by decide)]
  simp only [coerce, reduceCtorEq, if_false, bind, Except.bind]
  simp [Dict.set, zipAttrs, zipTail]

/-- What follows the fixed part of a Z/IP packet: the header options, if any byte follows, and the command bytes. -/
def zipBody (f1 : UInt8) : Bytes → Py (Option (Dict Nat OptVal) × Bytes)
  | [] => .ok (none, [])
  | len :: tl =>
    if f1.toNat < 128 ∨ len = 0 then .ok (some [], len :: tl)
    else if tl.length < len.toNat - 1 then .error .eof
    else do
      let o ← optionLoop ((tl.take (len.toNat - 1)).length + 1) (Reader.new (tl.take (len.toNat - 1))) []
      if o.all (fun p => 1 ≤ p.1 && p.1 ≤ 5) then .ok (some o, tl.drop (len.toNat - 1)) else .error .value

/-- Attributes of a packet with the given options. -/
def zipAll (f0 f1 seq s d : UInt8) : Option (Dict Nat OptVal) → Dict String Val
  | none => zipAttrs f0 f1 seq s d
  | some o => zipAttrs f0 f1 seq s d ++ [("headerExtension", .hdr o)]

theorem zip_command {dec : Reader → Py (Msg × Reader)} (all : List Field) (pre cb : Bytes) (A : Dict String Val) :
    parseFields all dec [⟨"command", .message, none, none⟩] ⟨pre ++ cb, 8 * pre.length⟩ A =
      if cb = [] then .ok (A, none, ⟨pre ++ cb, 8 * pre.length⟩)
      else (do
        let (m, r) ← dec ⟨pre ++ cb, 8 * pre.length⟩
        pure (A, some m, r)) := by
  have hb : (Reader.mk (pre ++ cb) (8 * pre.length)).bytesLeft = cb.length := by
    simp only [Reader.bytesLeft, List.length_append]; omega
  simp only [parseFields, hb]
  cases cb with
  | nil => simp
  | cons c cb => rw [if_neg (by simp; omega)]; simp

theorem hdr_read (pre : Bytes) (len : UInt8) (tl : Bytes) (hp : pre.length = 7) :
    deserHdr ⟨pre ++ len :: tl, 56⟩ =
      if len = 0 then .ok ([], ⟨pre ++ len :: tl, 56⟩)
      else if tl.length < len.toNat - 1 then .error .eof
      else (do
        let o ← optionLoop ((tl.take (len.toNat - 1)).length + 1) (Reader.new (tl.take (len.toNat - 1))) []
        .ok (o, ⟨pre ++ len :: tl, 8 * (8 + (len.toNat - 1))⟩)) := by
  have hby : (Reader.mk (pre ++ len :: tl) 56).byte = .ok (len, ⟨pre ++ len :: tl, 64⟩) := by
    rw [Reader.byte_ok (by simp; omega)]
    simp [Reader.advance, List.getElem_append_right, hp]
  rw [deserHdr, hby]
  by_cases h0 : len = 0
  · subst h0
    rw [if_pos rfl]
    have hv : (Reader.mk (pre ++ 0 :: tl) 64).valueZ (((0 : UInt8).toNat : Int) - 1) = .ok ([], ⟨pre ++ 0 :: tl, 56⟩) := by
      have hs : pySlice (pre ++ 0 :: tl) ((8 : Nat) : Int) (7 : Int) = [] := by
        rw [pySlice_nonneg _ _ _ (by omega) (by simp; omega)]
        apply List.drop_eq_nil_of_le
        simp; omega
      simp only [Reader.valueZ]
      rw [if_neg (by simp; omega)]
      exact congrArg (fun x => Except.ok (x, _)) hs
    simp only [bind, Except.bind]
    rw [hv]
    simp [optionLoop, Reader.new, Reader.bytesLeft, pure, Except.pure]
  · have hl : 1 ≤ len.toNat := by
      rcases Nat.eq_zero_or_pos len.toNat with h | h
      · exact absurd (UInt8.toNat_inj.mp (by simpa using h)) h0
      · exact h
    rw [if_neg h0]
    by_cases he : tl.length < len.toNat - 1
    · have hv : (Reader.mk (pre ++ len :: tl) 64).valueZ ((len.toNat : Int) - 1) = .error .eof := by
        simp only [Reader.valueZ]
        rw [if_pos (by simp; omega)]
      rw [if_pos he]
      simp only [bind, Except.bind]
      rw [hv]
    · have hv : (Reader.mk (pre ++ len :: tl) 64).valueZ ((len.toNat : Int) - 1) =
          .ok (tl.take (len.toNat - 1), ⟨pre ++ len :: tl, 8 * (8 + (len.toNat - 1))⟩) := by
        have e : pre ++ len :: tl = (pre ++ [len]) ++ tl := by simp
        have e8 : (pre ++ [len]).length = 8 := by simp [hp]
        have hs : pySlice (pre ++ len :: tl) ((8 : Nat) : Int) ((8 : Nat) + ((len.toNat : Int) - 1)) = tl.take (len.toNat - 1) := by
          have : ((8 : Nat) + ((len.toNat : Int) - 1)) = (((pre ++ [len]).length + (len.toNat - 1) : Nat) : Int) := by omega
          rw [this, pySlice_nonneg _ _ _ (by omega) (by rw [e]; simp; omega), Int.toNat_natCast, e, List.take_length_add_append]
          rw [show (8 : Nat) = (pre ++ [len]).length by rw [e8], List.drop_left]
        simp only [Reader.valueZ]
        rw [if_neg (by simp; omega)]
        have h2 : ((64 : Nat) + ((len.toNat : Int) - 1) * 8 : Int).toNat = 8 * (8 + (len.toNat - 1)) := by omega
        rw [h2]
        exact congrArg (fun x => Except.ok (x, _)) hs
      rw [if_neg he]
      simp only [bind, Except.bind]
      rw [hv]
      rfl

theorem zip_tail {dec : Reader → Py (Msg × Reader)} (f0 f1 seq s d : UInt8) (pre rest : Bytes) (hp : pre.length = 7) :
    parseFields Reg.Zip.ZipPacket.fields dec zipTail ⟨pre ++ rest, 56⟩ (zipAttrs f0 f1 seq s d) =
      (do
        let (o, cb) ← zipBody f1 rest
        if cb = [] then .ok (zipAll f0 f1 seq s d o, none, ⟨pre ++ rest, 8 * (pre.length + rest.length)⟩)
        else do
          let (m, r) ← dec ⟨pre ++ rest, 8 * (pre.length + rest.length - cb.length)⟩
          pure (zipAll f0 f1 seq s d o, some m, r)) := by
  have h56 : 56 = 8 * pre.length := by omega
  have hall : typeOf Reg.Zip.ZipPacket.fields "headerExtension" = .hdr := by decide
  generalize Reg.Zip.ZipPacket.fields = all at hall
  cases rest with
  | nil =>
    have hb : (Reader.mk (pre ++ []) 56).bytesLeft = 0 := by
      simp only [Reader.bytesLeft, List.length_append, hp]; simp
    simp only [zipTail, parseFields, hb, zipBody, bind, Except.bind, if_true, zipAll]
    simp [hp]
  | cons len tl =>
    have hb : (Reader.mk (pre ++ len :: tl) 56).bytesLeft ≠ 0 := by
      simp only [Reader.bytesLeft, List.length_append, hp, List.length_cons]; omega
    have hg : Dict.get? (zipAttrs f0 f1 seq s d) "headerExtIncluded" = some (.num .flag (f1.toNat / 128 % 2 : Nat)) := by
      simp [zipAttrs, Dict.get?]
    have hset : ∀ o, Dict.set (zipAttrs f0 f1 seq s d) "headerExtension" (.hdr o) = zipAll f0 f1 seq s d (some o) := by
      intro o; simp [zipAttrs, Dict.set, zipAll]
    rw [zipTail, parseFields_step (by simp) hb]
    simp only [hall]
    have hf := UInt8.toNat_lt f1
    by_cases hx : f1.toNat < 128
    · have hr : readField ⟨"headerExtension", .hdr, some .headerExtension, none⟩ (zipAttrs f0 f1 seq s d) ⟨pre ++ len :: tl, 56⟩ =
          .ok (.hdr [], ⟨pre ++ len :: tl, 56⟩) := by
        simp only [readField, runHook, hg]
        rw [if_pos (by omega)]
      rw [hr]
      simp only [bind, Except.bind, coerce, List.all_nil, if_true, hset, zipBody, hx, true_or]
      rw [h56, zip_command]
      simp [bind, Except.bind, pure, Except.pure]
    · have hr : readField ⟨"headerExtension", .hdr, some .headerExtension, none⟩ (zipAttrs f0 f1 seq s d) ⟨pre ++ len :: tl, 56⟩ =
          (deserHdr ⟨pre ++ len :: tl, 56⟩ >>= fun p => .ok (.hdr p.1, p.2)) := by
        simp only [readField, runHook, hg]
        rw [if_neg (by omega)]
        rfl
      rw [hr, hdr_read pre len tl hp]
      simp only [zipBody, hx, false_or]
      by_cases h0 : len = 0
      · rw [if_pos h0, if_pos h0]
        simp only [bind, Except.bind, coerce, List.all_nil, if_true, hset]
        rw [h56, zip_command]
        simp [bind, Except.bind, pure, Except.pure]
      · rw [if_neg h0, if_neg h0]
        by_cases he : tl.length < len.toNat - 1
        · rw [if_pos he, if_pos he]; rfl
        · rw [if_neg he, if_neg he]
          generalize optionLoop ((tl.take (len.toNat - 1)).length + 1) (Reader.new (tl.take (len.toNat - 1))) [] = x
          cases x with
          | error e => rfl
          | ok o =>
            simp only [bind, Except.bind, coerce]
            by_cases hk : (List.all o fun p => decide (1 ≤ p.fst) && decide (p.fst ≤ 5)) = true
            · rw [if_pos hk, if_pos hk]
              simp only [hset]
              have e1 : pre ++ len :: tl = (pre ++ len :: tl.take (len.toNat - 1)) ++ tl.drop (len.toNat - 1) := by
                simp
              have e2 : 8 * (8 + (len.toNat - 1)) = 8 * (pre ++ len :: tl.take (len.toNat - 1)).length := by
                simp [hp]; omega
              have e3 : 8 * (pre.length + (len :: tl).length - (tl.drop (len.toNat - 1)).length) =
                  8 * (pre ++ len :: tl.take (len.toNat - 1)).length := by
                simp; omega
              rw [e3, e2, e1, zip_command]
              by_cases hcb : tl.drop (len.toNat - 1) = []
              · have : tl.length = len.toNat - 1 ∨ tl.length < len.toNat - 1 := by
                  have := congrArg List.length hcb; simp at this; omega
                simp only [hcb, if_true]
                simp; omega
              · simp only [hcb, if_false, bind, Except.bind]
            · rw [if_neg hk, if_neg hk]

theorem zip_find : registry.find? (fun d => d.hid = 8962) = some Reg.Zip.ZipPacket := by decide +kernel

/-- Decoding any byte string that starts like a Z/IP packet with a complete fixed part. -/
theorem zip_decode (f0 f1 seq s d : UInt8) (rest : Bytes) :
    decode (0x23 :: 0x02 :: f0 :: f1 :: seq :: s :: d :: rest) = (do
      let (o, cb) ← zipBody f1 rest
      if cb = [] then .ok (.known 0x2302 (zipAll f0 f1 seq s d o))
      else do
        let m ← decode cb
        .ok (.wrap 0x2302 (zipAll f0 f1 seq s d o) m)) := by
  have ht := zip_tail (dec := deserMsg registry (rest.length + 7)) f0 f1 seq s d [0x23, 0x02, f0, f1, seq, s, d] rest rfl
  simp only [decode, decodeN, List.length_cons]
  rw [deserMsg_cons]
  have hh : (35 : UInt8).toNat * 256 + (2 : UInt8).toNat = 8962 := rfl
  simp only [hh, zip_find]
  rw [zip_fixed]
  simp only [List.cons_append, List.nil_append] at ht
  rw [ht]
  cases hz : zipBody f1 rest with
  | error e => rfl
  | ok p =>
    obtain ⟨o, cb⟩ := p
    simp only [bind, Except.bind]
    by_cases hcb : cb = []
    · simp only [hcb, if_true]; rfl
    · simp only [hcb, if_false]
      obtain ⟨mid, hmid⟩ : ∃ mid, rest = mid ++ cb := by
        cases rest with
        | nil => cases hz; exact absurd rfl hcb
        | cons len tl =>
          simp only [zipBody] at hz
          split at hz
          · cases hz; exact ⟨[], rfl⟩
          · split at hz
            · cases hz
            · obtain ⟨o', -, hz⟩ := bind_ok hz
              split at hz
              · cases hz
                exact ⟨len :: tl.take (len.toNat - 1), by simp⟩
              · cases hz
      have ha := deserMsg_at ([0x23, 0x02, f0, f1, seq, s, d] ++ mid) cb (rest.length + 7)
        (by have := congrArg List.length hmid; simp at this; omega)
      have e1 : ([0x23, 0x02, f0, f1, seq, s, d] ++ mid) ++ cb = 0x23 :: 0x02 :: f0 :: f1 :: seq :: s :: d :: rest := by
        rw [hmid]; simp
      have e2 : 8 * ([0x23, 0x02, f0, f1, seq, s, d] ++ mid).length = 8 * (7 + rest.length - cb.length) := by
        rw [hmid]; simp; omega
      rw [e1, e2] at ha
      simp only [List.length_cons, List.length_nil, Nat.zero_add] at ha ⊢
      rw [show 1 + 1 + 1 + 1 + 1 + 1 + 1 = 7 from rfl] at *
      change _ = (decode cb >>= fun m => Except.ok (Msg.wrap 8962 (zipAll f0 f1 seq s d o) m))
      rw [← ha]
      generalize deserMsg registry (rest.length + 7) _ = x
      cases x with
      | error e => rfl
      | ok p => rfl

end Model

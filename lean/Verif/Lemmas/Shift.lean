import Verif.Lemmas.Total
/-! Helper lemmas: decoding a message in the middle of a buffer gives the same as decoding it alone. -/
namespace Model
open Spec

/-- The same reader in a buffer with `pre` in front. -/
def sh (pre : Bytes) (r : Reader) : Reader := ⟨pre ++ r.data, r.start + 8 * pre.length⟩

/-- The same result in a buffer with `pre` in front. -/
def mapR {α} (pre : Bytes) (x : Py (α × Reader)) : Py (α × Reader) :=
  match x with
  | .error e => .error e
  | .ok (a, r) => .ok (a, sh pre r)

@[simp] theorem mapR_ok {α} (pre : Bytes) (a : α) (r : Reader) : mapR pre (.ok (a, r)) = .ok (a, sh pre r) := rfl
@[simp] theorem mapR_error {α} (pre : Bytes) (e : PyErr) : mapR pre (.error e : Py (α × Reader)) = .error e := rfl

theorem mapR_bind {α β} (pre : Bytes) (x : Py (α × Reader)) (f : α × Reader → Py β) :
    (mapR pre x >>= f) = (x >>= fun p => f (p.1, sh pre p.2)) := by
  cases x <;> rfl

theorem bind_mapR {α β} (pre : Bytes) (x : Py α) (f : α → Py (β × Reader)) :
    mapR pre (x >>= f) = (x >>= fun p => mapR pre (f p)) := by
  cases x <;> rfl

theorem sh_bytesLeft (pre : Bytes) (r : Reader) : (sh pre r).bytesLeft = r.bytesLeft := by
  simp only [sh, Reader.bytesLeft, List.length_append]
  have : (r.start + 8 * pre.length) / 8 = r.start / 8 + pre.length := by omega
  omega

theorem sh_advance (pre : Bytes) (r : Reader) (n : Nat) : (sh pre r).advance n = sh pre (r.advance n) := by
  simp only [sh, Reader.advance, Reader.mk.injEq, true_and]; omega

theorem sh_value (pre : Bytes) (r : Reader) (n : Nat) : (sh pre r).value n = mapR pre (r.value n) := by
  have h1 : (r.start + 8 * pre.length) / 8 = pre.length + r.start / 8 := by omega
  by_cases h : r.start / 8 + n ≤ r.data.length
  · rw [Reader.value_ok h, Reader.value_ok (r := sh pre r) (by simp [sh, h1]; omega)]
    simp only [mapR_ok, if_true, sh_advance, Except.ok.injEq, Prod.mk.injEq, and_true]
    simp only [sh, h1]
    rw [← List.drop_drop, List.drop_left]
  · have h' : r.data.length < r.start / 8 + n := by omega
    rw [Reader.value_eof h', Reader.value_eof (r := sh pre r) (by simp [sh, h1]; omega)]; rfl

theorem sh_byte (pre : Bytes) (r : Reader) : (sh pre r).byte = mapR pre (r.byte) := by
  simp only [Reader.byte, sh_value]
  cases r.value 1 with
  | error e => rfl
  | ok p =>
    obtain ⟨b, r'⟩ := p
    simp only [mapR_ok]
    match b with
    | [] => rfl
    | [_] => rfl
    | _ :: _ :: _ => rfl

theorem sh_getElem (pre : Bytes) (r : Reader) (h : r.start / 8 < r.data.length) (h' : (sh pre r).start / 8 < (sh pre r).data.length) :
    (sh pre r).data[(sh pre r).start / 8] = r.data[r.start / 8] := by
  have h1 : (sh pre r).start / 8 = pre.length + r.start / 8 := by simp [sh]; omega
  simp only [sh] at h1 ⊢
  rw [List.getElem_append_right (by omega)]
  congr 1
  omega

theorem sh_bits (pre : Bytes) (r : Reader) (n : Nat) : (sh pre r).bits n = mapR pre (r.bits n) := by
  by_cases h : r.start / 8 < r.data.length
  · have h' : (sh pre r).start / 8 < (sh pre r).data.length := by simp [sh]; omega
    simp only [Reader.bits, Reader.peekByte_ok h, Reader.peekByte_ok h', sh_getElem pre r h h']
    have hm : (sh pre r).start % 8 = r.start % 8 := by simp [sh]
    rw [hm]
    split
    · rfl
    · simp [sh_advance]
  · have h' : r.data.length ≤ r.start / 8 := by omega
    rw [Reader.bits_eof h', Reader.bits_eof (r := sh pre r) (by simp [sh]; omega)]; rfl

theorem sh_remaining (pre : Bytes) (r : Reader) : ((sh pre r).remaining).1 = (r.remaining).1 := by
  have h1 : (r.start + 8 * pre.length) / 8 = pre.length + r.start / 8 := by omega
  simp only [Reader.remaining, sh, h1]
  rw [← List.drop_drop, List.drop_left]

theorem pySlice_nonneg {α} (l : List α) (i : Nat) (j : Int) (hj : 0 ≤ j) (hle : j ≤ l.length) :
    pySlice l i j = (l.take j.toNat).drop i := by
  obtain ⟨k, rfl⟩ := Int.eq_ofNat_of_zero_le hj
  have hk : k ≤ l.length := by omega
  simp only [pySlice, Int.toNat_natCast]
  have e1 : (if (k : Int) < 0 then max ((k : Int) + l.length) 0 else min (k : Int) l.length).toNat = k := by
    rw [if_neg (by omega)]; omega
  have e2 : (if (i : Int) < 0 then max ((i : Int) + l.length) 0 else min (i : Int) l.length).toNat = min i l.length := by
    rw [if_neg (by omega)]; omega
  rw [e1, e2]
  by_cases hi : i ≤ l.length
  · rw [Nat.min_eq_left hi]
  · rw [Nat.min_eq_right (by omega), List.drop_eq_nil_of_le (by simp; omega), List.drop_eq_nil_of_le (by simp; omega)]

theorem sh_valueZ (pre : Bytes) (r : Reader) (n : Int) (h : 0 ≤ ((r.start / 8 : Nat) : Int) + n) :
    (sh pre r).valueZ n = mapR pre (r.valueZ n) := by
  have h1 : (r.start + 8 * pre.length) / 8 = pre.length + r.start / 8 := by omega
  simp only [Reader.valueZ]
  have hs : ((sh pre r).start / 8 : Nat) = pre.length + r.start / 8 := h1
  have hl : (sh pre r).data.length = pre.length + r.data.length := by simp [sh]
  rw [hs, hl]
  by_cases hc : ((r.start / 8 : Nat) : Int) + n > r.data.length
  · rw [if_pos hc, if_pos (by omega)]; rfl
  · rw [if_neg hc, if_neg (by omega)]
    simp only [mapR_ok, Except.ok.injEq, Prod.mk.injEq]
    constructor
    · have e : ((pre.length + r.start / 8 : Nat) : Int) + n = ((pre.length + (((r.start / 8 : Nat) : Int) + n).toNat : Nat) : Int) := by
        omega
      rw [e, pySlice_nonneg _ _ _ (by omega) (by simp only [hl]; omega), pySlice_nonneg _ _ _ h (by omega), Int.toNat_natCast]
      simp only [sh]
      rw [List.take_length_add_append, ← List.drop_drop, List.drop_left]
    · simp only [sh, Reader.mk.injEq, true_and]
      omega

theorem sh_deserNum (pre : Bytes) (t : FT) (r : Reader) : deserNum t (sh pre r) = mapR pre (deserNum t r) := by
  cases t <;> simp only [deserNum, mapR_error, sh_value, sh_bits, mapR_bind, bind_mapR] <;> rfl

theorem sh_parseNums (pre : Bytes) (fs : List (String × FT)) (r : Reader) (acc : Dict String Int) :
    parseNums fs (sh pre r) acc = mapR pre (parseNums fs r acc) := by
  induction fs generalizing r acc with
  | nil => rfl
  | cons p fs ih =>
    obtain ⟨name, t⟩ := p
    simp only [parseNums, sh_bytesLeft]
    split
    · rfl
    · rw [sh_deserNum, mapR_bind, bind_mapR]
      congr 1; funext p; exact ih _ _

theorem sh_deserStr (pre : Bytes) (r : Reader) : deserStr (sh pre r) = mapR pre (deserStr r) := by
  simp only [deserStr, sh_byte, sh_value, mapR_bind, bind_mapR]; rfl

theorem sh_deserFloat (pre : Bytes) (r : Reader) : deserFloat (sh pre r) = mapR pre (deserFloat r) := by
  simp only [deserFloat, sh_bits, sh_value, mapR_bind, bind_mapR]; rfl

theorem sh_deserDskN (pre : Bytes) (r : Reader) (n : Nat) : deserDskN (sh pre r) n = mapR pre (deserDskN r n) := by
  simp only [deserDskN]
  split
  · rfl
  · split
    · rfl
    · exact sh_value _ _ _

theorem sh_deserNodeList (pre : Bytes) (k i : Nat) (r : Reader) :
    deserNodeList k i (sh pre r) = mapR pre (deserNodeList k i r) := by
  induction k generalizing i r with
  | zero => rfl
  | succ k ih =>
    simp only [deserNodeList, sh_value, mapR_bind, bind_mapR]
    congr 1; funext p
    rw [ih, mapR_bind]; rfl

theorem sh_deserHdr (pre : Bytes) (r : Reader) : deserHdr (sh pre r) = mapR pre (deserHdr r) := by
  simp only [deserHdr, sh_byte, mapR_bind, bind_mapR]
  cases h : r.byte with
  | error e => rfl
  | ok p =>
    obtain ⟨b, r1⟩ := p
    obtain ⟨-, s1, -⟩ := byte_start h
    simp only [bind, Except.bind]
    rw [sh_valueZ _ _ _ (by omega)]
    cases r1.valueZ ((b.toNat : Int) - 1) with
    | error e => rfl
    | ok q =>
      obtain ⟨ext, r2⟩ := q
      simp only [mapR_ok]
      cases optionLoop (ext.length + 1) (Reader.new ext) [] <;> rfl

theorem sh_agiPairs (pre : Bytes) (k : Nat) (r : Reader) : agiPairs k (sh pre r) = mapR pre (agiPairs k r) := by
  induction k generalizing r with
  | zero => rfl
  | succ k ih =>
    simp only [agiPairs, sh_byte, mapR_bind, bind_mapR]
    congr 1; funext p
    congr 1; funext q
    rw [ih, mapR_bind]; rfl

theorem sh_agiGroups (pre : Bytes) (k : Nat) (r : Reader) : agiGroups k (sh pre r) = mapR pre (agiGroups k r) := by
  induction k generalizing r with
  | zero => rfl
  | succ k ih =>
    simp only [agiGroups, sh_parseNums, mapR_bind, bind_mapR]
    congr 1; funext p
    rw [ih, mapR_bind]; rfl

/-- Loop budgets do not matter as long as they exceed the bytes left. -/
theorem metaLoop_fuel (k k' : Nat) (r : Reader) (acc : Dict Nat Bytes) (h : left r < k) (h' : left r < k') :
    metaLoop k r acc = metaLoop k' r acc := by
  induction k generalizing k' r acc with
  | zero => omega
  | succ k ih =>
    cases k' with
    | zero => omega
    | succ k' =>
      simp only [metaLoop]
      split
      · rfl
      · simp only [bind, Except.bind]
        cases h1 : r.bits 7 with
        | error e => rfl
        | ok p1 =>
          obtain ⟨ty, r1⟩ := p1
          simp only
          cases h2 : r1.bit with
          | error e => rfl
          | ok p2 =>
            obtain ⟨_, r2⟩ := p2
            simp only
            cases h3 : r2.byte with
            | error e => rfl
            | ok p3 =>
              obtain ⟨len, r3⟩ := p3
              simp only
              cases h4 : r3.value len.toNat with
              | error e => rfl
              | ok p4 =>
                obtain ⟨b, r4⟩ := p4
                simp only
                obtain ⟨d1, s1, l1⟩ := bits_start h1
                obtain ⟨d2, s2, -⟩ := bits_start h2
                obtain ⟨d3, s3, -⟩ := byte_start h3
                obtain ⟨d4, s4, -, -⟩ := value_start h4
                apply ih
                · simp only [left] at h ⊢; rw [d4, d3, d2, d1]; omega
                · simp only [left] at h' ⊢; rw [d4, d3, d2, d1]; omega

theorem sh_metaLoop (pre : Bytes) (k : Nat) (r : Reader) (acc : Dict Nat Bytes) :
    metaLoop k (sh pre r) acc = mapR pre (metaLoop k r acc) := by
  induction k generalizing r acc with
  | zero => rfl
  | succ k ih =>
    simp only [metaLoop, sh_bytesLeft]
    split
    · rfl
    · simp only [Reader.bit, sh_bits, mapR_bind, bind_mapR]
      congr 1; funext p
      congr 1; funext q
      rw [sh_byte, mapR_bind]
      congr 1; funext p
      rw [sh_value, mapR_bind]
      congr 1; funext q
      exact ih _ _

/-! ### fields -/

/-- Fields that can be read in the middle of a message, with the least number of bits they take. -/
def shiftKind (f : Field) : Option Nat :=
  match f.parse, f.ty with
  | none, .uint n => some (8 * n)
  | none, .ubits n => some n
  | none, .bits n => some n
  | none, .flag => some 1
  | none, .reserved n => some n
  | none, .str => some 0
  | none, .float => some 0
  | none, .dsk => some 0
  | none, .ipv6 => some 0
  | none, .nodeList => some 0
  | none, .hdr => some 0
  | none, .pyint => some 0
  | some .headerExtension, .hdr => some 0
  | some .configValue, .pyint => some 0
  | some .agiCommandClass, .pylist => some 0
  | some .agiGroups, .pylist => some 0
  | some .dskN, .dsk => some 0
  | some .nodeFailing, .uint _ => some 0
  | _, _ => none

/-- Fields that read up to the end of the buffer. -/
def lastKind (p : Nat) (f : Field) : Bool :=
  match f.parse, f.ty with
  | none, .bytes => true
  | none, .nodes => true
  | none, .sensors => true
  | none, .metaExt => true
  | some .nodeAddCommandClass, .pylist => decide (56 ≤ p)
  | _, .message => true
  | _, _ => false

/-- `p` bits have been read. -/
def shiftOk : Nat → List Field → Bool
  | _, [] => true
  | p, f :: fs =>
    match shiftKind f with
    | some w => shiftOk (if w = 0 then 0 else p + w) fs
    | none => lastKind p f && fs.isEmpty

theorem registry_shiftOk : ∀ d ∈ registry, shiftOk 16 d.fields = true := by decide +kernel

/-- all integers parsed so far are non-negative -/
def NonNeg (acc : Dict String Val) : Prop := ∀ n t v, Dict.get? acc n = some (.num t v) → 0 ≤ v

theorem intAttr_nonneg {acc : Dict String Val} (h : NonNeg acc) {n : String} {v : Int} (hv : intAttr acc n = .ok v) : 0 ≤ v := by
  simp only [intAttr] at hv
  split at hv
  · rename_i t x hx; cases hv; exact h _ _ _ hx
  · cases hv

theorem sh_readField (pre : Bytes) {f : Field} {w : Nat} (hf : shiftKind f = some w) {acc : Dict String Val} (hn : NonNeg acc)
    (r : Reader) : readField f acc (sh pre r) = mapR pre (readField f acc r) := by
  obtain ⟨name, ty, ph, ch⟩ := f
  cases ph with
  | none =>
    simp only [readField]
    cases ty <;> simp only [shiftKind, reduceCtorEq] at hf <;>
      simp only [deserVal, sh_deserNum, sh_deserStr, sh_deserFloat, sh_deserDskN, sh_deserNodeList, sh_deserHdr, sh_value,
        mapR_bind, bind_mapR] <;> rfl
  | some k =>
    simp only [readField]
    cases k <;> cases ty <;> simp only [shiftKind, reduceCtorEq] at hf <;> simp only [runHook]
    case headerExtension.hdr =>
      split
      · split
        · rfl
        · simp only [sh_deserHdr, mapR_bind, bind_mapR]; rfl
      · rfl
    case configValue.pyint =>
      cases hs : intAttr acc "size" with
      | error e => rfl
      | ok n =>
        have := intAttr_nonneg hn hs
        simp only [bind, Except.bind]
        rw [sh_valueZ _ _ _ (by omega)]
        cases r.valueZ n <;> rfl
    case agiCommandClass.pylist =>
      simp only [sh_byte, mapR_bind, bind_mapR]
      congr 1; funext p
      rw [sh_agiPairs, mapR_bind]; rfl
    case agiGroups.pylist =>
      simp only [bind_mapR]
      congr 1; funext p
      rw [sh_agiGroups, mapR_bind]; rfl
    case dskN.dsk =>
      simp only [bind_mapR]
      congr 1; funext p
      rw [sh_deserDskN, mapR_bind]; rfl
    case nodeFailing.uint =>
      rw [sh_bytesLeft]
      split
      · rw [sh_advance, sh_byte, mapR_bind, bind_mapR]; rfl
      · rw [sh_byte, mapR_bind, bind_mapR]; rfl

theorem readField_start {f : Field} {w : Nat} (hf : shiftKind f = some w) (hw : 0 < w) {acc : Dict String Val} {r r' : Reader} {v : Val}
    (h : readField f acc r = .ok (v, r')) : r.start + w ≤ r'.start := by
  obtain ⟨name, ty, ph, ch⟩ := f
  cases ph with
  | none =>
    simp only [readField] at h
    cases ty <;> simp only [shiftKind, Option.some.injEq, reduceCtorEq] at hf <;> (try omega) <;>
      simp only [deserVal, deserNum] at h <;> obtain ⟨⟨x, r1⟩, h1, h⟩ := bind_ok h <;> cases h <;>
      obtain ⟨⟨y, r2⟩, h2, h1⟩ := bind_ok h1 <;> cases h1
    · have := (value_start h2).2.1; dsimp only; omega
    all_goals (have := (bits_start h2).2.1; dsimp only; omega)
  | some k => cases k <;> cases ty <;> simp only [shiftKind, Option.some.injEq, reduceCtorEq] at hf <;> omega

/-- Values read from the stream are non-negative unless the attribute is signed. -/
theorem readField_nonneg {f : Field} {w : Nat} (hf : shiftKind f = some w) {acc : Dict String Val} {r r' : Reader} {t : FT} {x : Int}
    (h : readField f acc r = .ok (.num t x, r')) : 0 ≤ x := by
  obtain ⟨name, ty, ph, ch⟩ := f
  cases ph with
  | none =>
    simp only [readField] at h
    cases ty <;> simp only [shiftKind, Option.some.injEq, reduceCtorEq] at hf <;> simp only [deserVal] at h
    case pyint => cases h
    case str => obtain ⟨⟨x, r1⟩, h1, h⟩ := bind_ok h; cases h
    case float =>
      obtain ⟨⟨x, r1⟩, h1, h⟩ := bind_ok h
      obtain ⟨⟨x, r1⟩, h1, h⟩ := bind_ok h
      obtain ⟨⟨x, r1⟩, h1, h⟩ := bind_ok h
      obtain ⟨⟨x, r1⟩, h1, h⟩ := bind_ok h
      cases h
    case dsk => obtain ⟨⟨x, r1⟩, h1, h⟩ := bind_ok h; cases h
    case ipv6 => obtain ⟨⟨x, r1⟩, h1, h⟩ := bind_ok h; cases h
    case nodeList => obtain ⟨⟨x, r1⟩, h1, h⟩ := bind_ok h; cases h
    case hdr => obtain ⟨⟨x, r1⟩, h1, h⟩ := bind_ok h; cases h
    all_goals
      obtain ⟨⟨x, r1⟩, h1, h⟩ := bind_ok h
      cases h
      simp only [deserNum] at h1
      obtain ⟨⟨y, r2⟩, h2, h1⟩ := bind_ok h1
      cases h1
      omega
  | some k =>
    simp only [readField] at h
    cases k <;> cases ty <;> simp only [shiftKind, reduceCtorEq] at hf <;> simp only [runHook] at h
    case headerExtension.hdr =>
      split at h
      · split at h
        · cases h
        · obtain ⟨⟨x, r1⟩, h1, h⟩ := bind_ok h; cases h
      · cases h
    case configValue.pyint =>
      obtain ⟨n, h1, h⟩ := bind_ok h
      obtain ⟨⟨x, r1⟩, h1, h⟩ := bind_ok h; cases h; omega
    case agiCommandClass.pylist =>
      obtain ⟨⟨x, r1⟩, h1, h⟩ := bind_ok h
      obtain ⟨⟨x, r1⟩, h1, h⟩ := bind_ok h; cases h
    case agiGroups.pylist =>
      obtain ⟨n, h1, h⟩ := bind_ok h
      obtain ⟨⟨x, r1⟩, h1, h⟩ := bind_ok h; cases h
    case dskN.dsk =>
      obtain ⟨n, h1, h⟩ := bind_ok h
      obtain ⟨⟨x, r1⟩, h1, h⟩ := bind_ok h; cases h
    case nodeFailing.uint =>
      obtain ⟨⟨x, r1⟩, h1, h⟩ := bind_ok h; cases h; omega

theorem coerce_nonneg {t : FT} {v : Val} {v' : Val} (h : coerce t v = .ok v') (hv : ∀ t x, v = .num t x → 0 ≤ x) :
    ∀ t x, v' = .num t x → 0 ≤ x := by
  intro t' x hx
  subst hx
  cases v <;> simp only [coerce] at h
  case num t2 y =>
    have := hv _ _ rfl
    cases h
    split <;> omega
  case metaExt => split at h <;> cases h
  case hdr => split at h <;> cases h
  all_goals cases h

/-- the result without the reader -/
def noReader {α} (x : Py (α × Reader)) : Py α :=
  match x with
  | .error e => .error e
  | .ok (a, _) => .ok a

def noReader3 {α β} (x : Py (α × β × Reader)) : Py (α × β) :=
  match x with
  | .error e => .error e
  | .ok (a, b, _) => .ok (a, b)

theorem noReader_mapR {α} (pre : Bytes) (x : Py (α × Reader)) : noReader (mapR pre x) = noReader x := by
  cases x <;> rfl

/-- A field read at the end: value independent of the position. -/
theorem sh_readLast (pre : Bytes) {f : Field} {acc : Dict String Val} (hn : NonNeg acc) {r : Reader} {p : Nat} (hp : p ≤ r.start)
    (hf : lastKind p f = true) (hm : f.ty ≠ .message) :
    noReader (readField f acc (sh pre r)) = noReader (readField f acc r) := by
  obtain ⟨name, ty, ph, ch⟩ := f
  cases ph with
  | none =>
    simp only [readField]
    cases ty <;> simp only [lastKind, reduceCtorEq, Bool.false_eq_true] at hf <;> simp only [deserVal]
    case bytes =>
      simp only [Reader.remaining]
      have := sh_remaining pre r
      simp only [Reader.remaining] at this
      simp [noReader, this]
    case nodes =>
      have := sh_remaining pre r
      simp only [this]
      simp only [bind, Except.bind]
      cases deserNodes (r.remaining).1 <;> rfl
    case sensors =>
      have := sh_remaining pre r
      simp only [deserSensors, this, bind, Except.bind]
      cases sensorLoop (8 * (r.remaining).1.length) (fromBytesBE (r.remaining).1) 1 <;> rfl
    case metaExt =>
      rw [sh_metaLoop]
      rw [metaLoop_fuel ((sh pre r).data.length + 1) (r.data.length + 1) r [] (by simp [left, sh]; omega) (by simp [left]; omega)]
      cases metaLoop (r.data.length + 1) r [] with
      | error e => rfl
      | ok q => rfl
  | some k =>
    simp only [readField]
    cases k <;> cases ty <;> simp only [lastKind, reduceCtorEq, Bool.false_eq_true, decide_eq_true_eq] at hf <;> (try exact absurd rfl hm)
    simp only [runHook]
    cases hs : intAttr acc "nodeInfoLength" with
    | error e => rfl
    | ok n =>
      have h0 := intAttr_nonneg hn hs
      simp only [bind, Except.bind, sh_bytesLeft]
      split
      · have := sh_remaining pre r
        simp only [Reader.remaining] at this
        simp [noReader, Reader.remaining, pure, Except.pure, this]
      · rw [sh_valueZ _ _ _ (by omega)]
        cases r.valueZ (n - 7) <;> rfl

theorem sh_parseFields (pre : Bytes) {all fs : List Field} {dec : Reader → Py (Msg × Reader)}
    (hdec : ∀ r, noReader (dec (sh pre r)) = noReader (dec r)) {r : Reader} {p : Nat} (hp : p ≤ r.start)
    {acc : Dict String Val} (hn : NonNeg acc) (hf : shiftOk p fs = true) :
    noReader3 (parseFields all dec fs (sh pre r) acc) = noReader3 (parseFields all dec fs r acc) := by
  induction fs generalizing r p acc with
  | nil => rfl
  | cons f fs ih =>
    by_cases hb : r.bytesLeft = 0
    · have hb' : (sh pre r).bytesLeft = 0 := by rw [sh_bytesLeft]; exact hb
      simp only [parseFields, if_pos hb, if_pos hb']; rfl
    have hb' : (sh pre r).bytesLeft ≠ 0 := by rw [sh_bytesLeft]; exact hb
    by_cases hm : f.ty = .message
    · simp only [parseFields, if_neg hb, if_neg hb', if_pos hm]
      have hgen : noReader3 (do let (m, r) ← dec (sh pre r); pure (acc, some m, r) : Py (Dict String Val × Option Msg × Reader)) =
          noReader3 (do let (m, r) ← dec r; pure (acc, some m, r) : Py (Dict String Val × Option Msg × Reader)) := by
        have := hdec r
        cases h1 : dec (sh pre r) <;> cases h2 : dec r <;> rw [h1, h2] at this <;> simp [noReader] at this <;>
          simp [noReader3, bind, Except.bind, pure, Except.pure, this]
      split
      · rw [sh_byte, mapR_bind]
        cases r.byte with
        | error e => rfl
        | ok q =>
          obtain ⟨len, r1⟩ := q
          simp only [bind, Except.bind]
          rw [sh_value]
          cases r1.value len.toNat with
          | error e => rfl
          | ok q =>
            obtain ⟨b, r2⟩ := q
            simp only [mapR_ok]
            cases dec (Reader.new b) <;> rfl
      · exact hgen
    · rw [parseFields_step hm hb, parseFields_step hm hb']
      simp only [shiftOk] at hf
      cases hk : shiftKind f with
      | some w =>
        rw [hk] at hf
        simp only at hf
        rw [sh_readField pre hk hn, mapR_bind]
        cases h1 : readField f acc r with
        | error e => rfl
        | ok q =>
          obtain ⟨v, r1⟩ := q
          simp only [bind, Except.bind]
          cases h2 : coerce (typeOf all f.name) v with
          | error e => rfl
          | ok v' =>
            simp only
            refine ih ?_ ?_ hf
            · split
              · omega
              · have := readField_start hk (by omega) h1; omega
            · intro n t x hx
              rw [Dict.get?_set] at hx
              split at hx
              · have hx := Option.some.inj hx
                exact coerce_nonneg h2 (fun t x hv => readField_nonneg hk (by rw [h1, hv])) t x hx
              · exact hn n t x hx
      | none =>
        rw [hk] at hf
        simp only [Bool.and_eq_true, List.isEmpty_iff] at hf
        obtain ⟨hl, rfl⟩ := hf
        have := sh_readLast pre hn hp hl hm
        cases h1 : readField f acc r with
        | error e =>
          cases h2 : readField f acc (sh pre r) with
          | error e' => rw [h1, h2] at this; simp [noReader] at this; subst this; rfl
          | ok q => rw [h1, h2] at this; simp [noReader] at this
        | ok q =>
          obtain ⟨v, r1⟩ := q
          cases h2 : readField f acc (sh pre r) with
          | error e' => rw [h1, h2] at this; simp [noReader] at this
          | ok q =>
            obtain ⟨v2, r2⟩ := q
            rw [h1, h2] at this
            simp [noReader] at this
            subst this
            simp only [bind, Except.bind]
            cases coerce (typeOf all f.name) v2 <;> rfl

theorem sh_deserMsg (pre : Bytes) (k : Nat) (r : Reader) :
    noReader (deserMsg registry k (sh pre r)) = noReader (deserMsg registry k r) := by
  induction k generalizing r with
  | zero => rfl
  | succ k ih =>
    simp only [deserMsg, sh_bytesLeft]
    split
    · rfl
    · rw [sh_byte, mapR_bind]
      cases h1 : r.byte with
      | error e => rfl
      | ok p =>
        obtain ⟨cc, r1⟩ := p
        simp only [bind, Except.bind]
        rw [sh_byte]
        cases h2 : r1.byte with
        | error e => rfl
        | ok p =>
          obtain ⟨cmd, r2⟩ := p
          simp only [mapR_ok]
          cases h3 : registry.find? (fun d => decide (d.hid = (cc.toNat <<< 8) ||| (cmd.toNat &&& 0xFF))) with
          | none => rfl
          | some d =>
            simp only
            have hs := (byte_start h1).2.1
            have hs2 := (byte_start h2).2.1
            have key := sh_parseFields pre (all := d.fields) (dec := deserMsg registry k) ih (r := r2) (p := 16) (by omega)
              (acc := []) (by intro n t v h; cases h) (registry_shiftOk d (List.mem_of_find?_eq_some h3))
            revert key
            cases parseFields d.fields (deserMsg registry k) d.fields (sh pre r2) [] <;>
              cases parseFields d.fields (deserMsg registry k) d.fields r2 [] <;> simp only [noReader3] <;> intro key
            · cases key; rfl
            · cases key
            · cases key
            · rename_i a b
              obtain ⟨a1, a2, a3⟩ := a
              obtain ⟨b1, b2, b3⟩ := b
              cases key
              cases a2 <;> rfl

/-- Decoding at any byte position of a buffer. -/
theorem deserMsg_at (pre b : Bytes) (k : Nat) (hk : b.length < 2 * k) :
    noReader (deserMsg registry k ⟨pre ++ b, 8 * pre.length⟩) = decode b := by
  have h := sh_deserMsg pre k (Reader.new b)
  simp only [sh, Reader.new, Nat.zero_add] at h
  rw [h, deserMsg_depth k (b.length + 1) _ (by simpa [left] using hk) (by simp [left]; omega)]
  simp only [decode, decodeN, Reader.new]
  generalize deserMsg registry (b.length + 1) ⟨b, 0⟩ = x
  cases x <;> rfl

theorem deserMsg_cons (depth : Nat) (cc cmd : UInt8) (rest : Bytes) :
    deserMsg registry (depth + 1) (Reader.new (cc :: cmd :: rest)) =
      (match registry.find? (fun d => d.hid = cc.toNat * 256 + cmd.toNat) with
        | none => pure (.unknown (cc.toNat * 256 + cmd.toNat), ⟨cc :: cmd :: rest, 16⟩)
        | some d => do
          let (attrs, c, r) ← parseFields d.fields (deserMsg registry depth) d.fields ⟨cc :: cmd :: rest, 16⟩ []
          match c with
          | none => pure (.known (cc.toNat * 256 + cmd.toNat) attrs, r)
          | some m => pure (.wrap (cc.toNat * 256 + cmd.toNat) attrs m, r)) := by
  have hb : ¬ (Reader.new (cc :: cmd :: rest)).bytesLeft < 2 := by simp [Reader.bytesLeft, Reader.new]; omega
  have h1 : (Reader.new (cc :: cmd :: rest)).byte = .ok (cc, ⟨cc :: cmd :: rest, 8⟩) := by
    rw [Reader.byte_ok (by simp [Reader.new])]; simp [Reader.new, Reader.advance]
  have h2 : (Reader.mk (cc :: cmd :: rest) 8).byte = .ok (cmd, ⟨cc :: cmd :: rest, 16⟩) := by
    rw [Reader.byte_ok (by simp)]; simp [Reader.advance]
  have hid : (cc.toNat <<< 8) ||| (cmd.toNat &&& 0xFF) = cc.toNat * 256 + cmd.toNat := by
    rw [hid_bits _ _ (UInt8.toNat_lt cmd), Nat.mod_eq_of_lt (UInt8.toNat_lt cmd)]
  rw [deserMsg, if_neg hb, h1]
  simp only [bind, Except.bind]
  rw [h2]
  simp only [hid]
  generalize registry.find? (fun d => decide (d.hid = cc.toNat * 256 + cmd.toNat)) = o
  cases o with
  | none => simp only
  | some d =>
    simp only
    generalize parseFields d.fields (deserMsg registry depth) d.fields ⟨cc :: cmd :: rest, 16⟩ [] = x
    cases x with
    | error e => rfl
    | ok p => obtain ⟨a, c, r⟩ := p; cases c <;> rfl

end Model

import Verif.Lemmas.Roundtrip
/-! Helper lemmas: decoding never runs out of its iteration or nesting budgets. -/
namespace Model
open Spec

/-- The result is not one of the model's budget errors. -/
def Clean {α} (x : Py α) : Prop := x ≠ .error .fuel ∧ x ≠ .error .recursion

theorem Clean.ok {α} (a : α) : Clean (.ok a : Py α) := ⟨by simp, by simp⟩
theorem Clean.pure {α} (a : α) : Clean (Pure.pure a : Py α) := ⟨by simp [Pure.pure, Except.pure], by simp [Pure.pure, Except.pure]⟩

theorem Clean.bind {α β} {x : Py α} {f : α → Py β} (hx : Clean x) (hf : ∀ a, x = .ok a → Clean (f a)) :
    Clean (x >>= f) := by
  cases x with
  | error e => exact ⟨fun h => hx.1 (by simpa [Bind.bind, Except.bind] using h), fun h => hx.2 (by simpa [Bind.bind, Except.bind] using h)⟩
  | ok a => exact hf a rfl

theorem Clean.err {α} {e : PyErr} (h1 : e ≠ .fuel) (h2 : e ≠ .recursion) : Clean (.error e : Py α) :=
  ⟨by simpa using h1, by simpa using h2⟩

theorem clean_value (r : Reader) (n : Nat) (adv : Bool) : Clean (r.value n adv) := by
  simp only [Reader.value]; split
  · exact Clean.err (by simp) (by simp)
  · exact Clean.ok _

theorem clean_valueZ (r : Reader) (n : Int) : Clean (r.valueZ n) := by
  simp only [Reader.valueZ]; split
  · exact Clean.err (by simp) (by simp)
  · exact Clean.ok _

theorem clean_byte (r : Reader) (adv : Bool) : Clean (r.byte adv) := by
  simp only [Reader.byte]
  have := clean_value r 1 adv
  split
  · rename_i e h; rw [h] at this; exact ⟨fun h' => this.1 (by simpa using h'), fun h' => this.2 (by simpa using h')⟩
  · exact Clean.ok _
  · exact Clean.ok _

theorem clean_bits (r : Reader) (n : Nat) (adv : Bool) : Clean (r.bits n adv) := by
  by_cases h : r.start / 8 < r.data.length
  · simp only [Reader.bits, Reader.peekByte_ok h]
    split
    · exact Clean.err (by simp) (by simp)
    · exact Clean.ok _
  · rw [Reader.bits_eof (by omega)]; exact Clean.err (by simp) (by simp)

/-! ### progress -/

theorem value_start {r r' : Reader} {n : Nat} {b : Bytes} (h : r.value n = .ok (b, r')) :
    r'.data = r.data ∧ r'.start = r.start + 8 * n ∧ b.length = n ∧ r.start / 8 + n ≤ r.data.length := by
  simp only [Reader.value] at h
  split at h
  · cases h
  · rename_i hle
    cases h
    refine ⟨rfl, by simp [Reader.advance]; omega, ?_, by omega⟩
    simp; omega

theorem byte_start {r r' : Reader} {b : UInt8} (h : r.byte = .ok (b, r')) :
    r'.data = r.data ∧ r'.start = r.start + 8 ∧ r.start / 8 < r.data.length := by
  by_cases hl : r.start / 8 < r.data.length
  · rw [Reader.byte_ok hl] at h; cases h; exact ⟨rfl, rfl, hl⟩
  · rw [Reader.byte_eof (by omega)] at h; cases h

theorem bits_start {r r' : Reader} {n x : Nat} (h : r.bits n = .ok (x, r')) :
    r'.data = r.data ∧ r'.start = r.start + n ∧ r.start / 8 < r.data.length := by
  by_cases hl : r.start / 8 < r.data.length
  · simp only [Reader.bits, Reader.peekByte_ok hl] at h
    split at h
    · cases h
    · cases h; exact ⟨rfl, rfl, hl⟩
  · rw [Reader.bits_eof (by omega)] at h; cases h

theorem bind_ok {α β} {x : Py α} {f : α → Py β} {b : β} (h : (x >>= f) = .ok b) : ∃ a, x = .ok a ∧ f a = .ok b := by
  cases x with
  | error e => simp [Bind.bind, Except.bind] at h
  | ok a => exact ⟨a, rfl, h⟩

/-! ### loops -/

theorem clean_deserNum (t : FT) (r : Reader) : Clean (deserNum t r) := by
  cases t <;> simp only [deserNum]
  any_goals exact Clean.err (by simp) (by simp)
  all_goals first
    | exact Clean.bind (clean_value _ _ _) (fun _ _ => Clean.pure _)
    | exact Clean.bind (clean_bits _ _ _) (fun _ _ => Clean.pure _)

theorem clean_parseNums (fs : List (String × FT)) (r : Reader) (acc : Dict String Int) : Clean (parseNums fs r acc) := by
  induction fs generalizing r acc with
  | nil => exact Clean.ok _
  | cons p fs ih =>
    obtain ⟨name, t⟩ := p
    simp only [parseNums]
    split
    · exact Clean.ok _
    · exact Clean.bind (clean_deserNum _ _) (fun _ _ => ih _ _)

theorem clean_decodeUtf8 (b : Bytes) : Clean (decodeUtf8 b) := by
  fun_induction decodeUtf8 b
  all_goals first
    | exact Clean.ok _
    | exact Clean.err (by simp) (by simp)
    | (rename_i ih; exact Clean.bind ih (fun _ _ => Clean.pure _))

theorem clean_deserPairs (b : Bytes) : Clean (deserPairs b) := by
  fun_induction deserPairs b
  · exact Clean.ok _
  · exact Clean.err (by simp) (by simp)
  · rename_i ih; exact Clean.bind ih (fun _ _ => Clean.pure _)

theorem clean_deserNodes (b : Bytes) : Clean (deserNodes b) := by
  fun_induction deserNodes b
  · exact Clean.ok _
  · exact clean_deserPairs _
  · rename_i ih; exact Clean.bind ih (fun _ _ => Clean.pure _)

theorem clean_deserNodeList (k i : Nat) (r : Reader) : Clean (deserNodeList k i r) := by
  induction k generalizing i r with
  | zero => exact Clean.ok _
  | succ k ih =>
    exact Clean.bind (clean_value _ _ _) (fun _ _ => Clean.bind (ih _ _) (fun _ _ => Clean.pure _))

theorem clean_sensorLoop (fuel value i : Nat) (h : value < 2 ^ fuel) : Clean (sensorLoop fuel value i) := by
  induction fuel generalizing value i with
  | zero =>
    have : value = 0 := by simpa using h
    simp [sensorLoop, this]; exact Clean.ok _
  | succ k ih =>
    have h2 : value >>> 1 < 2 ^ k := by
      rw [Nat.shiftRight_eq_div_pow]; rw [Nat.pow_succ] at h; omega
    simp only [sensorLoop]
    split
    · split
      · split
        · exact Clean.bind (ih _ _ h2) (fun _ _ => Clean.pure _)
        · exact Clean.err (by simp) (by simp)
      · exact ih _ _ h2
    · exact Clean.ok _

theorem clean_metaLoop (fuel : Nat) (r : Reader) (acc : Dict Nat Bytes) (h : r.data.length - r.start / 8 < fuel) :
    Clean (metaLoop fuel r acc) := by
  induction fuel generalizing r acc with
  | zero => omega
  | succ k ih =>
    simp only [metaLoop]
    split
    · exact Clean.ok _
    · refine Clean.bind (clean_bits _ _ _) ?_
      rintro ⟨ty, r1⟩ h1
      refine Clean.bind (clean_bits _ _ _) ?_
      rintro ⟨_, r2⟩ h2
      refine Clean.bind (clean_byte _ _) ?_
      rintro ⟨len, r3⟩ h3
      refine Clean.bind (clean_value _ _ _) ?_
      rintro ⟨b, r4⟩ h4
      obtain ⟨d1, s1, l1⟩ := bits_start h1
      obtain ⟨d2, s2, -⟩ := bits_start h2
      obtain ⟨d3, s3, -⟩ := byte_start h3
      obtain ⟨d4, s4, -, -⟩ := value_start h4
      apply ih
      dsimp only at *
      simp only [d4, d3, d2, d1]
      omega

theorem clean_loadIME (ty : Nat) (b : Bytes) : Clean (loadIME ty b) := by
  simp only [loadIME]
  split
  · exact Clean.bind (clean_value _ _ _) (fun _ _ => Clean.pure _)
  · split
    · exact Clean.bind (clean_value _ _ _) (fun _ _ => Clean.pure _)
    · split
      · exact Clean.bind (clean_parseNums _ _ _) (fun _ _ => Clean.pure _)
      · exact Clean.pure _

theorem clean_maintLoop (fuel : Nat) (r : Reader) (acc : Dict Nat IMEVal) (h : r.data.length - r.start / 8 < fuel) :
    Clean (maintLoop fuel r acc) := by
  induction fuel generalizing r acc with
  | zero => omega
  | succ k ih =>
    simp only [maintLoop]
    split
    · exact Clean.ok _
    · refine Clean.bind (clean_byte _ _) ?_
      rintro ⟨ty, r1⟩ h1
      simp only
      split
      · exact Clean.err (by simp) (by simp)
      · refine Clean.bind (clean_byte _ _) ?_
        rintro ⟨len, r3⟩ h3
        refine Clean.bind (clean_value _ _ _) ?_
        rintro ⟨b, r4⟩ h4
        refine Clean.bind (clean_loadIME _ _) ?_
        intro v _
        obtain ⟨d1, s1, l1⟩ := byte_start h1
        obtain ⟨d3, s3, -⟩ := byte_start h3
        obtain ⟨d4, s4, -, -⟩ := value_start h4
        apply ih
        dsimp only at *
        simp only [d4, d3, d1]
        omega

theorem clean_parseOptionData (ty : Nat) (r : Reader) : Clean (parseOptionData ty r) := by
  refine Clean.bind (clean_byte _ _) ?_
  rintro ⟨len, r1⟩ h1
  refine Clean.bind (clean_value _ _ _) ?_
  rintro ⟨b, r2⟩ h2
  simp only
  split
  · exact Clean.bind (clean_maintLoop _ _ _ (by simp [Reader.new])) (fun _ _ => Clean.pure _)
  · split
    · exact Clean.bind (clean_parseNums _ _ _) (fun _ _ => Clean.pure _)
    · split
      · exact Clean.bind (clean_value _ _ _) (fun _ _ => Clean.pure _)
      · exact Clean.err (by simp) (by simp)

theorem clean_parseOption (r : Reader) : Clean (parseOption r) := by
  refine Clean.bind (clean_bits _ _ _) ?_
  rintro ⟨_, r1⟩ _
  refine Clean.bind (clean_bits _ _ _) ?_
  rintro ⟨ty, r2⟩ _
  simp only
  split
  · exact Clean.pure _
  · exact Clean.bind (clean_parseOptionData _ _) (fun _ _ => Clean.pure _)

theorem parseOptionData_start {ty : Nat} {r r' : Reader} {v : OptVal} (h : parseOptionData ty r = .ok (v, r')) :
    r'.data = r.data ∧ r.start + 8 ≤ r'.start := by
  obtain ⟨⟨len, r1⟩, h1, h⟩ := bind_ok h
  obtain ⟨⟨b, r2⟩, h2, h⟩ := bind_ok h
  obtain ⟨d1, s1, -⟩ := byte_start h1
  obtain ⟨d2, s2, -, -⟩ := value_start h2
  have key : r' = r2 := by
    simp only at h
    split at h
    · obtain ⟨x, _, h⟩ := bind_ok h; cases h; rfl
    · split at h
      · obtain ⟨x, _, h⟩ := bind_ok h; cases h; rfl
      · split at h
        · obtain ⟨x, _, h⟩ := bind_ok h; cases h; rfl
        · cases h
  subst key
  exact ⟨by rw [d2, d1], by omega⟩

theorem parseOption_start {r r' : Reader} {p : Nat × OptVal} (h : parseOption r = .ok (p, r')) :
    r'.data = r.data ∧ r.start + 8 ≤ r'.start := by
  obtain ⟨⟨_, r1⟩, h1, h⟩ := bind_ok h
  obtain ⟨⟨ty, r2⟩, h2, h⟩ := bind_ok h
  obtain ⟨d1, s1, -⟩ := bits_start h1
  obtain ⟨d2, s2, -⟩ := bits_start h2
  simp only at h
  split at h
  · cases h; exact ⟨by rw [d2, d1], by omega⟩
  · obtain ⟨⟨v, r3⟩, h3, h⟩ := bind_ok h
    cases h
    obtain ⟨d3, s3⟩ := parseOptionData_start h3
    exact ⟨by rw [d3, d2, d1], by dsimp only at *; omega⟩

theorem clean_optionLoop (fuel : Nat) (r : Reader) (acc : Dict Nat OptVal) (h : r.data.length - r.start / 8 < fuel) :
    Clean (optionLoop fuel r acc) := by
  induction fuel generalizing r acc with
  | zero => omega
  | succ k ih =>
    simp only [optionLoop]
    split
    · rename_i hb
      refine Clean.bind (clean_parseOption _) ?_
      rintro ⟨⟨ty, v⟩, r1⟩ h1
      obtain ⟨d1, s1⟩ := parseOption_start h1
      apply ih
      simp only [Reader.bytesLeft] at hb
      simp only [d1]
      omega
    · exact Clean.ok _

theorem clean_deserHdr (r : Reader) : Clean (deserHdr r) := by
  refine Clean.bind (clean_byte _ _) ?_
  rintro ⟨b, r1⟩ _
  refine Clean.bind (clean_valueZ _ _) ?_
  rintro ⟨ext, r2⟩ _
  exact Clean.bind (clean_optionLoop _ _ _ (by simp [Reader.new])) (fun _ _ => Clean.pure _)

theorem deserHdr_start {r r' : Reader} {d : Dict Nat OptVal} (h : deserHdr r = .ok (d, r')) :
    r'.data = r.data ∧ r.start ≤ r'.start := by
  obtain ⟨⟨b, r1⟩, h1, h⟩ := bind_ok h
  obtain ⟨⟨ext, r2⟩, h2, h⟩ := bind_ok h
  obtain ⟨x, _, h⟩ := bind_ok h
  cases h
  obtain ⟨d1, s1, -⟩ := byte_start h1
  simp only [Reader.valueZ] at h2
  split at h2
  · cases h2
  · cases h2
    refine ⟨by simp [d1], ?_⟩
    simp only [s1]
    omega

theorem clean_agiPairs (k : Nat) (r : Reader) : Clean (agiPairs k r) := by
  induction k generalizing r with
  | zero => exact Clean.ok _
  | succ k ih =>
    exact Clean.bind (clean_byte _ _) (fun _ _ => Clean.bind (clean_byte _ _) (fun _ _ => Clean.bind (ih _) (fun _ _ => Clean.pure _)))

theorem clean_agiGroups (k : Nat) (r : Reader) : Clean (agiGroups k r) := by
  induction k generalizing r with
  | zero => exact Clean.ok _
  | succ k ih =>
    exact Clean.bind (clean_parseNums _ _ _) (fun _ _ => Clean.bind (ih _) (fun _ _ => Clean.pure _))

theorem clean_deserDskN (r : Reader) (n : Nat) : Clean (deserDskN r n) := by
  simp only [deserDskN]
  split
  · exact Clean.ok _
  · split
    · exact Clean.err (by simp) (by simp)
    · exact clean_value _ _ _

theorem clean_deserStr (r : Reader) : Clean (deserStr r) :=
  Clean.bind (clean_byte _ _) (fun _ _ => Clean.bind (clean_value _ _ _) (fun _ _ => Clean.bind (clean_decodeUtf8 _) (fun _ _ => Clean.pure _)))

theorem clean_deserFloat (r : Reader) : Clean (deserFloat r) :=
  Clean.bind (clean_bits _ _ _) (fun _ _ => Clean.bind (clean_bits _ _ _) (fun _ _ => Clean.bind (clean_bits _ _ _)
    (fun _ _ => Clean.bind (clean_value _ _ _) (fun _ _ => Clean.pure _))))

theorem clean_deserSensors (r : Reader) : Clean (deserSensors r) := by
  unfold deserSensors
  refine Clean.bind (clean_sensorLoop _ _ _ ?_) (fun _ _ => Clean.pure _)
  rw [fromBytesBE_eq, Nat.pow_mul]
  exact beNat_lt _

theorem clean_deserVal (t : FT) (r : Reader) : Clean (deserVal t r) := by
  cases t <;> simp only [deserVal]
  case bytes => exact Clean.ok _
  case str => exact Clean.bind (clean_deserStr _) (fun _ _ => Clean.pure _)
  case float => exact clean_deserFloat _
  case dsk => exact Clean.bind (clean_deserDskN _ _) (fun _ _ => Clean.pure _)
  case ipv6 => exact Clean.bind (clean_value _ _ _) (fun _ _ => Clean.pure _)
  case nodes => exact Clean.bind (clean_deserNodes _) (fun _ _ => Clean.pure _)
  case nodeList => exact Clean.bind (clean_deserNodeList _ _ _) (fun _ _ => Clean.pure _)
  case sensors => exact Clean.bind (clean_deserSensors _) (fun _ _ => Clean.pure _)
  case metaExt => exact Clean.bind (clean_metaLoop _ _ _ (by omega)) (fun _ _ => Clean.pure _)
  case hdr => exact Clean.bind (clean_deserHdr _) (fun _ _ => Clean.pure _)
  any_goals exact Clean.err (by simp) (by simp)
  all_goals exact Clean.bind (clean_deserNum _ _) (fun _ _ => Clean.pure _)

theorem clean_coerce (t : FT) (v : Val) : Clean (coerce t v) := by
  cases v <;> simp only [coerce]
  any_goals exact Clean.ok _
  all_goals (split; exact Clean.ok _; exact Clean.err (by simp) (by simp))

theorem clean_intAttr (a : Dict String Val) (n : String) : Clean (intAttr a n) := by
  simp only [intAttr]
  split
  · exact Clean.ok _
  · exact Clean.err (by simp) (by simp)

theorem clean_runHook (h : ParseHook) (a : Dict String Val) (r : Reader) : Clean (runHook h a r) := by
  cases h <;> simp only [runHook]
  case headerExtension =>
    split
    · split
      · exact Clean.ok _
      · exact Clean.bind (clean_deserHdr _) (fun _ _ => Clean.pure _)
    · exact Clean.ok _
  case configValue =>
    exact Clean.bind (clean_intAttr _ _) (fun _ _ => Clean.bind (clean_valueZ _ _) (fun _ _ => Clean.pure _))
  case nodeAddCommandClass =>
    refine Clean.bind (clean_intAttr _ _) (fun n _ => ?_)
    split
    · exact Clean.pure _
    · exact Clean.bind (clean_valueZ _ _) (fun _ _ => Clean.pure _)
  case agiCommandClass =>
    exact Clean.bind (clean_byte _ _) (fun _ _ => Clean.bind (clean_agiPairs _ _) (fun _ _ => Clean.pure _))
  case agiGroups =>
    exact Clean.bind (clean_intAttr _ _) (fun _ _ => Clean.bind (clean_agiGroups _ _) (fun _ _ => Clean.pure _))
  case dskN =>
    exact Clean.bind (clean_intAttr _ _) (fun _ _ => Clean.bind (clean_deserDskN _ _) (fun _ _ => Clean.pure _))
  case nodeFailing => exact Clean.bind (clean_byte _ _) (fun _ _ => Clean.pure _)
  case supervisionCommand => exact Clean.err (by simp) (by simp)

/-! ### nesting -/

/-- attribute that only moves the position forward -/
def forward (f : Field) : Bool :=
  match f.parse, f.ty with
  | some .headerExtension, .hdr => true
  | none, .uint _ => true
  | none, .flag => true
  | none, .bits _ => true
  | none, .ubits _ => true
  | none, .reserved _ => true
  | _, _ => false

/-- either there is no `command`, or everything before it only moves forward -/
def nestOk (fs : List Field) : Bool :=
  fs.all (fun f => f.ty != .message) || fs.all (fun f => f.ty == .message || forward f)

theorem registry_nestOk : ∀ d ∈ registry, nestOk d.fields = true := by decide +kernel

theorem deserNum_start {t : FT} {r r' : Reader} {v : Int} (h : deserNum t r = .ok (v, r')) :
    r'.data = r.data ∧ r.start ≤ r'.start := by
  cases t <;> simp only [deserNum] at h
  any_goals cases h
  all_goals
    obtain ⟨⟨x, r1⟩, h1, h⟩ := bind_ok h
    cases h
    have h2 : r1.data = r.data ∧ r.start ≤ r1.start := by
      first
        | (have h2 := value_start h1; exact ⟨h2.1, by omega⟩)
        | (have h2 := bits_start h1; exact ⟨h2.1, by omega⟩)
    exact h2

/-- reading one attribute -/
def readField (f : Field) (acc : Dict String Val) (r : Reader) : Py (Val × Reader) :=
  match f.parse with
  | some h => runHook h acc r
  | none => deserVal f.ty r

theorem parseFields_step {all fs : List Field} {f : Field} {dec : Reader → Py (Msg × Reader)} {r : Reader} {acc : Dict String Val}
    (hm : f.ty ≠ .message) (hb : r.bytesLeft ≠ 0) :
    parseFields all dec (f :: fs) r acc = (readField f acc r >>= fun p =>
      coerce (typeOf all f.name) p.1 >>= fun v => parseFields all dec fs p.2 (Dict.set acc f.name v)) := by
  simp only [parseFields, if_neg hm, if_neg hb, readField]
  cases f.parse <;> rfl

theorem clean_readField (f : Field) (acc : Dict String Val) (r : Reader) : Clean (readField f acc r) := by
  unfold readField
  split
  · exact clean_runHook _ _ _
  · exact clean_deserVal _ _

theorem forward_start {f : Field} (hf : forward f = true) {acc : Dict String Val} {r r' : Reader} {v : Val}
    (h : readField f acc r = .ok (v, r')) : r'.data = r.data ∧ r.start ≤ r'.start := by
  obtain ⟨name, ty, ph, ch⟩ := f
  unfold readField at h
  cases ph with
  | some k =>
    simp only at h
    cases k <;> cases ty <;> simp [forward] at hf
    simp only [runHook] at h
    split at h
    · split at h
      · cases h; exact ⟨rfl, Nat.le_refl _⟩
      · obtain ⟨⟨d, r1⟩, h1, h⟩ := bind_ok h
        cases h
        exact deserHdr_start h1
    · cases h; exact ⟨rfl, Nat.le_refl _⟩
  | none =>
    simp only at h
    cases ty <;> simp [forward] at hf <;>
    · obtain ⟨⟨x, r1⟩, h1, h⟩ := bind_ok h
      cases h
      exact deserNum_start h1

/-- The part of the input a nested decoder can still see from `r`. -/
def left (r : Reader) : Nat := r.data.length - r.start / 8

theorem no_command {all fs : List Field} {dec dec' : Reader → Py (Msg × Reader)}
    (h : fs.all (fun f => f.ty != .message) = true) (r : Reader) (acc : Dict String Val) :
    Clean (parseFields all dec fs r acc) ∧ parseFields all dec fs r acc = parseFields all dec' fs r acc := by
  induction fs generalizing r acc with
  | nil => exact ⟨Clean.ok _, rfl⟩
  | cons g gs ih =>
    simp only [List.all_cons, Bool.and_eq_true, bne_iff_ne] at h
    by_cases hb : r.bytesLeft = 0
    · simp only [parseFields, if_pos hb]; exact ⟨Clean.ok _, trivial⟩
    · rw [parseFields_step h.1 hb, parseFields_step h.1 hb]
      constructor
      · exact Clean.bind (clean_readField _ _ _) (fun p _ => Clean.bind (clean_coerce _ _) (fun v _ => (ih h.2 _ _).1))
      · congr 1; funext p; congr 1; funext v; exact (ih h.2 _ _).2

theorem supervision_left {r r1 r2 : Reader} {len : UInt8} {b : Bytes} (h1 : r.byte = .ok (len, r1))
    (h2 : r1.value len.toNat = .ok (b, r2)) : left (Reader.new b) ≤ left r := by
  obtain ⟨d1, s1, -⟩ := byte_start h1
  obtain ⟨d2, s2, l2, e2⟩ := value_start h2
  simp only [left, Reader.new]
  rw [d1] at e2
  omega

theorem clean_parseFields {all fs : List Field} {dec : Reader → Py (Msg × Reader)} {r : Reader} {acc : Dict String Val}
    (hn : nestOk fs = true) (hdec : ∀ r', left r' ≤ left r → Clean (dec r')) : Clean (parseFields all dec fs r acc) := by
  induction fs generalizing r acc with
  | nil => exact Clean.ok _
  | cons f fs ih =>
    by_cases hb : r.bytesLeft = 0
    · simp only [parseFields, if_pos hb]; exact Clean.ok _
    by_cases hm : f.ty = .message
    · simp only [parseFields, if_neg hb, if_pos hm]
      split
      · refine Clean.bind (clean_byte _ _) ?_
        rintro ⟨len, r1⟩ h1
        refine Clean.bind (clean_value _ _ _) ?_
        rintro ⟨b, r2⟩ h2
        exact Clean.bind (hdec _ (supervision_left h1 h2)) (fun _ _ => Clean.pure _)
      · exact Clean.bind (hdec _ (Nat.le_refl _)) (fun _ _ => Clean.pure _)
    · simp only [nestOk, Bool.or_eq_true] at hn
      rcases hn with hn | hn
      · exact (no_command (dec' := dec) hn _ _).1
      · simp only [List.all_cons, Bool.and_eq_true] at hn
        rw [parseFields_step hm hb]
        refine Clean.bind (clean_readField _ _ _) ?_
        rintro ⟨v, r1⟩ h1
        refine Clean.bind (clean_coerce _ _) (fun v' _ => ?_)
        have hf : forward f = true := by
          rcases (Bool.or_eq_true _ _).mp hn.1 with h | h
          · exact absurd (by simpa using h) hm
          · exact h
        obtain ⟨d1, s1⟩ := forward_start hf h1
        apply ih
        · simp [nestOk, hn.2]
        · intro r' hr'
          apply hdec
          refine Nat.le_trans hr' ?_
          simp only [left, d1]
          omega

theorem left_two {r : Reader} (h : ¬ r.bytesLeft < 2) : 2 ≤ left r := by
  simp only [Reader.bytesLeft] at h; simp only [left]; omega

theorem clean_deserMsg (depth : Nat) (r : Reader) (h : left r < 2 * depth) : Clean (deserMsg registry depth r) := by
  induction depth generalizing r with
  | zero => omega
  | succ k ih =>
    simp only [deserMsg]
    split
    · exact Clean.ok _
    · rename_i hb
      refine Clean.bind (clean_byte _ _) ?_
      rintro ⟨cc, r1⟩ h1
      refine Clean.bind (clean_byte _ _) ?_
      rintro ⟨cmd, r2⟩ h2
      obtain ⟨d1, s1, l1⟩ := byte_start h1
      obtain ⟨d2, s2, l2⟩ := byte_start h2
      simp only
      split
      · exact Clean.pure _
      · rename_i d hd
        refine Clean.bind ?_ ?_
        · apply clean_parseFields (registry_nestOk d (List.mem_of_find?_eq_some hd))
          intro r' hr'
          apply ih
          have hl := left_two hb
          dsimp only at *
          simp only [left, d2, d1] at hr' h hl ⊢
          omega
        · rintro ⟨attrs, c, r3⟩ _
          simp only
          split <;> exact Clean.pure _

/-- Beyond the needed depth the budget does not matter. -/
theorem parseFields_congr {all fs : List Field} {dec dec' : Reader → Py (Msg × Reader)} {r : Reader} {acc : Dict String Val}
    (hn : nestOk fs = true) (hdec : ∀ r', left r' ≤ left r → dec r' = dec' r') :
    parseFields all dec fs r acc = parseFields all dec' fs r acc := by
  induction fs generalizing r acc with
  | nil => rfl
  | cons f fs ih =>
    by_cases hb : r.bytesLeft = 0
    · simp only [parseFields, if_pos hb]
    by_cases hm : f.ty = .message
    · simp only [parseFields, if_neg hb, if_pos hm]
      split
      · cases h1 : r.byte with
        | error e => rfl
        | ok p =>
          obtain ⟨len, r1⟩ := p
          simp only [bind, Except.bind]
          cases h2 : r1.value len.toNat with
          | error e => rfl
          | ok q =>
            obtain ⟨b, r2⟩ := q
            simp only
            rw [hdec (Reader.new b) (supervision_left h1 h2)]
      · rw [hdec _ (Nat.le_refl _)]
    · simp only [nestOk, Bool.or_eq_true] at hn
      rcases hn with hn | hn
      · exact (no_command hn _ _).2
      · simp only [List.all_cons, Bool.and_eq_true] at hn
        rw [parseFields_step hm hb, parseFields_step hm hb]
        cases h1 : readField f acc r with
        | error e => rfl
        | ok p =>
          obtain ⟨v, r1⟩ := p
          simp only [bind, Except.bind]
          cases h2 : coerce (typeOf all f.name) v with
          | error e => rfl
          | ok v' =>
            simp only
            have hf : forward f = true := by
              rcases (Bool.or_eq_true _ _).mp hn.1 with h | h
              · exact absurd (by simpa using h) hm
              · exact h
            obtain ⟨d1, s1⟩ := forward_start hf h1
            apply ih
            · simp [nestOk, hn.2]
            · intro r' hr'
              apply hdec
              refine Nat.le_trans hr' ?_
              simp only [left, d1]
              omega

theorem deserMsg_depth (k k' : Nat) (r : Reader) (h : left r < 2 * k) (h' : left r < 2 * k') :
    deserMsg registry k r = deserMsg registry k' r := by
  induction k generalizing k' r with
  | zero => omega
  | succ k ih =>
    cases k' with
    | zero => omega
    | succ k' =>
      simp only [deserMsg]
      split
      · rfl
      · rename_i hb
        cases h1 : r.byte with
        | error e => simp only [bind, Except.bind]
        | ok p =>
          obtain ⟨cc, r1⟩ := p
          simp only [bind, Except.bind]
          cases h2 : r1.byte with
          | error e => simp only
          | ok q =>
            obtain ⟨cmd, r2⟩ := q
            have hl := left_two hb
            obtain ⟨d1, s1, l1⟩ := byte_start h1
            obtain ⟨d2, s2, l2⟩ := byte_start h2
            simp only
            split
            · rfl
            · rename_i d hd
              rw [parseFields_congr (registry_nestOk d (List.mem_of_find?_eq_some hd))]
              intro r' hr'
              apply ih <;> simp only [left, d2, d1] at hr' h h' hl ⊢ <;> omega

end Model

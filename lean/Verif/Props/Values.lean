import Verif.Lemmas.Records
import Verif.Spec.Kinds
import Verif.Lemmas.ZipCompose
/-!
# Property theorems C22 - C28: scaled values, configuration values, supervision and repeated records
-/
namespace Props
open Spec Model

/-! ## C22 -/

theorem fromBytesBEs_any (b : Bytes) : fromBytesBEs b = signedOf (8 * b.length) (beNat b) := by
  cases b with
  | nil => rfl
  | cons x b => exact fromBytesBEs_eq _ (by simp)

/-- **C22.** A scaled value at any byte position: one byte with precision, scale and size, then the mantissa. The decoded value is
the signed mantissa divided by `10^precision` (kept as a pair in the model) with that scale, and `1 + size` bytes are consumed. -/
theorem C22_scaled_value (pre mant tl : Bytes) (precision scale : Nat) (hp : precision < 8) (hs : scale < 4) (hm : mant.length < 8) :
    deserFloat ⟨pre ++ UInt8.ofNat (precision * 32 + scale * 8 + mant.length) :: (mant ++ tl), 8 * pre.length⟩ =
      .ok (.float (signedOf (8 * mant.length) (beNat mant)) precision mant.length scale,
        ⟨pre ++ UInt8.ofNat (precision * 32 + scale * 8 + mant.length) :: (mant ++ tl), 8 * (pre.length + 1 + mant.length)⟩) := by
  have hb : (UInt8.ofNat (precision * 32 + scale * 8 + mant.length)).toNat = precision * 32 + scale * 8 + mant.length := toNat_length (by omega)
  generalize UInt8.ofNat (precision * 32 + scale * 8 + mant.length) = b at hb
  have e1 := read_bits_hi pre (mant ++ tl) b 3 (by omega)
  have e3 := read_bits_lo pre (mant ++ tl) b 5 3 rfl (by omega)
  have e4 := read_value (pre ++ [b]) mant tl mant.length rfl
  have e2 : (Reader.mk (pre ++ b :: (mant ++ tl)) (8 * pre.length + 3)).bits 2 = .ok (scale, ⟨pre ++ b :: (mant ++ tl), 8 * pre.length + 5⟩) := by
    have h0 : (8 * pre.length + 3) / 8 = pre.length := by omega
    have hmm : (8 * pre.length + 3) % 8 = 3 := by omega
    have hlt : (Reader.mk (pre ++ b :: (mant ++ tl)) (8 * pre.length + 3)).start / 8 < (Reader.mk (pre ++ b :: (mant ++ tl)) (8 * pre.length + 3)).data.length := by
      simp [h0]
    rw [Reader.bits_ok hlt (by simp [hmm])]
    simp only [if_true, Reader.advance, Except.ok.injEq, Prod.mk.injEq, and_true]
    rw [Reader.rest_take hlt (by simp [hmm])]
    simp only [h0, hmm, List.getElem_append_right (Nat.le_refl _), Nat.sub_self, List.getElem_cons_zero]
    have e : toBits 8 b.toNat = toBits 3 (b.toNat / 2 ^ 5) ++ (toBits 2 (b.toNat / 2 ^ 3) ++ toBits 3 b.toNat) := by
      rw [← toBits_add, ← toBits_add]
    rw [e, List.drop_append_of_le_length (by simp), List.drop_eq_nil_of_le (by simp), List.nil_append,
      List.take_append_of_le_length (by simp), List.take_of_length_le (by simp), ofBits_toBits, hb]
    omega
  have h1 : b.toNat / 2 ^ (8 - 3) % 2 ^ 3 = precision := by rw [hb]; omega
  have h3 : b.toNat % 2 ^ 3 = mant.length := by rw [hb]; omega
  rw [h1] at e1
  rw [h3] at e3
  simp only [deserFloat, e1, e2, e3, e4, bind, Except.bind, pure, Except.pure, fromBytesBEs_any]
  simp
  omega

/-- **C22.** A truncated mantissa raises EOFError. -/
theorem C22_truncated (pre mant : Bytes) (b : UInt8) (h : mant.length < b.toNat % 8) :
    deserFloat ⟨pre ++ b :: mant, 8 * pre.length⟩ = .error .eof := by
  have e1 := read_bits_hi pre mant b 3 (by omega)
  have e3 := read_bits_lo pre mant b 5 3 rfl (by omega)
  have e2 : ∃ x, (Reader.mk (pre ++ b :: mant) (8 * pre.length + 3)).bits 2 = .ok (x, ⟨pre ++ b :: mant, 8 * pre.length + 5⟩) := by
    have h0 : (8 * pre.length + 3) / 8 = pre.length := by omega
    have hmm : (8 * pre.length + 3) % 8 = 3 := by omega
    have hlt : (Reader.mk (pre ++ b :: mant) (8 * pre.length + 3)).start / 8 < (Reader.mk (pre ++ b :: mant) (8 * pre.length + 3)).data.length := by
      simp [h0]
    exact ⟨_, by rw [Reader.bits_ok hlt (by simp [hmm])]; rfl⟩
  obtain ⟨x, e2⟩ := e2
  simp only [deserFloat, e1, e2, e3, bind, Except.bind, show (2 : Nat) ^ 3 = 8 from rfl]
  rw [Reader.value_eof (by simp; omega)]

/-- **C22.** A multilevel sensor report with any scaled value. -/
theorem C22_sensor_report (ty : UInt8) (mant tl : Bytes) (precision scale : Nat) (hp : precision < 8) (hs : scale < 4) (hm : mant.length < 8) :
    ∃ m, decode (0x31 :: 0x05 :: ty :: UInt8.ofNat (precision * 32 + scale * 8 + mant.length) :: (mant ++ tl)) = .ok m ∧
      m.hid = 0x3105 ∧ m.num? "sensorType" = some (ty.toNat : Int) ∧
      m.attr "sensorValue" = some (.float (signedOf (8 * mant.length) (beNat mant)) precision mant.length scale) := by
  have e := C22_scaled_value [0x31, 0x05, ty] mant tl precision scale hp hs hm
  generalize UInt8.ofNat (precision * 32 + scale * 8 + mant.length) = b at e
  rw [decode_def (d := Reg.SensorMultilevel.Report) (by decide +kernel) _ _ (by decide)]
  simp only [Reg.SensorMultilevel.Report]
  step_u8 ty
  rw [show 0x31 :: 0x05 :: ty :: b :: (mant ++ tl) = [0x31, 0x05, ty] ++ b :: (mant ++ tl) from rfl, parse_last (start := 24) rfl (by simp),
    if_neg (by simp)]
  simp only [List.length_cons, List.length_nil, Nat.reduceAdd, Nat.reduceMul] at e
  simp only [readField, deserVal, e, bind, Except.bind, coerce]
  exact ⟨_, rfl, rfl, rfl, rfl⟩

/-- 22.9 degrees: precision 1, scale 0, size 2, mantissa 229; and -1.5. -/
example : (decode [0x31, 0x05, 0x01, 0x22, 0x00, 0xE5]).map (·.attr "sensorValue") = .ok (some (.float 229 1 2 0)) ∧
    (decode [0x31, 0x05, 0x01, 0x21, 0xF1]).map (·.attr "sensorValue") = .ok (some (.float (-15) 1 1 0)) := by decide +kernel

/-! ## C23 -/

/-- Arguments of a configuration set. -/
def configArgs (p d s v : Int) : Args := fun n =>
  if n = "parameterNumber" then some (.int p) else if n = "default" then some (.int d)
  else if n = "size" then some (.int s) else if n = "value" then some (.int v) else none

/-- **C23.** `Configuration.Set(parameterNumber=p, default=d, size=s, value=v)` composes to the parameter number, the flag and size
byte and `s` big-endian bytes of `v` exactly if `0 <= v < 256^s`; any other value raises OverflowError. -/
theorem C23_set (p s : Nat) (d v : Int) (hp : p < 256) (hs : s < 8) :
    ∃ m, construct Reg.Configuration.Set (argKw (configArgs p d s v)) = .ok m ∧
      (0 ≤ v ∧ v < 256 ^ s → ∃ b, compose m = .ok b ∧ bitsOf b = toBits 8 0x70 ++ toBits 8 0x04 ++ toBits 8 p ++
        [d % 2 == 1] ++ List.replicate 4 false ++ toBits 3 s ++ toBits (8 * s) v.toNat) ∧
      (¬ (0 ≤ v ∧ v < 256 ^ s) → compose m = .error .overflow) := by
  let attrs : Dict String Val := [("parameterNumber", .num (.uint 1) p), ("default", .num .flag (d % 2)), ("size", .num (.ubits 3) s),
    ("value", .num .pyint v)]
  refine ⟨.known 0x7004 attrs, ?_, ?_⟩
  · simp [construct, initAttrs, Reg.Configuration.Set, argKw, configArgs, argVal, coerceInit, bind, Except.bind, pure, Except.pure, Dict.set, attrs, MsgDef.hid]
  · have hpow : (256 : Int) ^ s = 2 ^ (8 * s) := by
      rw [Int.pow_mul]; rfl
    have hfind : registry.find? (fun e => e.hid = 0x7004) = some Reg.Configuration.Set := by decide +kernel
    obtain ⟨w1, e1, ok1, b1, s1⟩ := addBytes_uint (w := Writer.new) (v := 0x70) (n := 1) rfl (by omega) (by omega)
    obtain ⟨w2, e2, ok2, b2, s2⟩ := addBytes_uint (w := w1) (v := 0x04) (n := 1) s1 (by omega) (by omega)
    have hwire : slotsWire (configArgs p d s v) [.num "parameterNumber" 8, .flag "default", .zero 4, .num "size" 3] =
        some (toBits 8 p ++ ([d % 2 == 1] ++ (List.replicate 4 false ++ toBits 3 s))) := by
      have h1 : (0 : Int) ≤ p ∧ (p : Int) < 2 ^ 8 := by omega
      have h2 : (0 : Int) ≤ s ∧ (s : Int) < 2 ^ 3 := by omega
      have a1 : configArgs p d s v "parameterNumber" = some (.int p) := rfl
      have a2 : configArgs p d s v "default" = some (.int d) := rfl
      have a3 : configArgs p d s v "size" = some (.int s) := rfl
      simp only [slotsWire, Slot.wire, a1, a2, a3, if_pos h1, if_pos h2, Int.toNat_natCast]
      simp
    obtain ⟨w3, e3, ok3, b3, s3⟩ := composeFields_ok (cmd := none) (attrs := attrs) (a := configArgs p d s v) (w := w2)
      (fs := Reg.Configuration.Set.fields.take 4) (by decide) (by decide) hwire (by
        intro f hf hr
        have : ∀ f ∈ Reg.Configuration.Set.fields.take 4, isRes f.ty = true → f.name = "-" := by decide
        rw [this f hf hr]; rfl) (by
        intro f hf
        simp only [Reg.Configuration.Set, List.take_succ_cons, List.take_zero, List.mem_cons, List.not_mem_nil, or_false] at hf
        rcases hf with rfl | rfl | rfl | rfl <;> rfl) ok2 (by rw [s2]; decide)
    have s30 : w3.start = 0 := by rw [s3, s2]; decide
    have hbits : w3.bits = toBits 8 0x70 ++ toBits 8 0x04 ++ toBits 8 p ++ [d % 2 == 1] ++ List.replicate 4 false ++ toBits 3 s := by
      rw [b3, b2, b1, Writer.bits_new]; simp
    have hc : compose (.known 0x7004 attrs) = (w3.addBytes v s false).map (·.data) := by
      have hcc : (Reg.Configuration.Set.cc : Int) = 0x70 := rfl
      have hcmd : (Reg.Configuration.Set.cmd : Int) = 0x04 := rfl
      simp only [compose, composeWith, hfind, composeDef, hcc, hcmd, e1, bind, Except.bind, e2]
      rw [show Reg.Configuration.Set.fields = Reg.Configuration.Set.fields.take 4 ++ [⟨"value", .pyint, none, some .configValue⟩] from rfl,
        composeFields_append e3]
      have g1 : Dict.get? attrs "value" = some (.num .pyint v) := rfl
      have g2 : Dict.get? attrs "size" = some (.num (.ubits 3) s) := rfl
      simp only [composeFields, composeField, g1, g2, Int.toNat_natCast, bind, Except.bind, pure, Except.pure]
      rw [if_neg (by simp)]
      cases w3.addBytes v s false <;> rfl
    constructor
    · rintro ⟨h0, h1⟩
      rw [hpow] at h1
      obtain ⟨w4, e4, -, b4, s4⟩ := addBytes_uint (w := w3) (v := v) (n := s) s30 h0 h1
      refine ⟨w4.data, by rw [hc, e4]; rfl, ?_⟩
      rw [← Writer.bits_aligned s4, b4, hbits]
    · intro h
      rw [hpow] at h
      rw [hc]
      simp only [Writer.addBytes, toBytesBE]
      rw [if_neg (by simp), if_neg h]
      rfl

/-- **C23.** A configuration report whose size field is the number of its value bytes yields their unsigned big-endian number. -/
theorem C23_report (p sz : UInt8) (value tl : Bytes) (hs : sz.toNat % 8 = value.length) (hne : value ++ tl ≠ []) :
    ∃ m, decode (0x70 :: 0x06 :: p :: sz :: (value ++ tl)) = .ok m ∧ m.hid = 0x7006 ∧ m.num? "parameterNumber" = some (p.toNat : Int) ∧
      m.num? "size" = some (value.length : Int) ∧ m.num? "value" = some (beNat value : Int) := by
  rw [decode_def (d := Reg.Configuration.Report) (by decide +kernel) _ _ (by decide)]
  simp only [Reg.Configuration.Report]
  step_u8 p
  step_bits 5 sz
  step_bits 3 sz
  rw [show 0x70 :: 0x06 :: p :: sz :: (value ++ tl) = [0x70, 0x06, p, sz] ++ (value ++ tl) from rfl,
    parse_last (start := 32) rfl (by simp), if_neg hne]
  have hz : (Reader.mk ([0x70, 0x06, p, sz] ++ (value ++ tl)) 32).valueZ value.length =
      .ok (value, ⟨[0x70, 0x06, p, sz] ++ (value ++ tl), 32 + value.length * 8⟩) := by
    simp only [Reader.valueZ]
    rw [if_neg (by simp; omega)]
    have := pySlice_nonneg ([0x70, 0x06, p, sz] ++ (value ++ tl)) 4 (4 + value.length : Nat) (by omega) (by simp; omega)
    have e2 : ([0x70, 0x06, p, sz] ++ (value ++ tl)).take (4 + value.length) = [0x70, 0x06, p, sz] ++ value := by
      rw [← List.append_assoc, List.take_append_of_le_length (by simp; omega), List.take_of_length_le (by simp; omega)]
    simp only [Int.toNat_natCast, e2] at this
    have e3 : (((32 : Nat) : Int) + (value.length : Int) * 8).toNat = 32 + value.length * 8 := by omega
    rw [e3]
    exact congrArg (fun x => Except.ok (x, _)) (this.trans rfl)
  simp only [readField, runHook, intAttr, Dict.get?, String.reduceEq, if_true, if_false, bind, Except.bind, pure, Except.pure]
  rw [show sz.toNat / 1 % 8 = value.length by omega]
  rw [hz]
  simp only [coerce, typeOf, List.find?, String.reduceEq, decide_true, decide_false, reduceCtorEq, if_false, fromBytesBE_eq]
  exact ⟨_, rfl, rfl, rfl, rfl, rfl⟩

/-- **C23.** A report with fewer value bytes than announced raises EOFError. -/
theorem C23_report_truncated (p sz : UInt8) (value : Bytes) (hs : value.length < sz.toNat % 8) (hne : value ≠ []) :
    decode (0x70 :: 0x06 :: p :: sz :: value) = .error .eof := by
  rw [decode_def (d := Reg.Configuration.Report) (by decide +kernel) _ _ (by decide)]
  simp only [Reg.Configuration.Report]
  step_u8 p
  step_bits 5 sz
  step_bits 3 sz
  rw [show 0x70 :: 0x06 :: p :: sz :: value = [0x70, 0x06, p, sz] ++ value from rfl,
    parse_last (start := 32) rfl (by simp), if_neg hne]
  simp only [readField, runHook, intAttr, Dict.get?, String.reduceEq, if_true, if_false, bind, Except.bind, pure, Except.pure, Reader.valueZ]
  rw [if_pos (by simp; omega)]

/-- A two byte value; 256 does not fit in one byte; negative values are refused. -/
example : (construct Reg.Configuration.Set (argKw (configArgs 3 0 2 300))).bind compose = .ok [0x70, 0x04, 3, 2, 1, 44] ∧
    (construct Reg.Configuration.Set (argKw (configArgs 3 0 1 256))).bind compose = .error .overflow ∧
    (construct Reg.Configuration.Set (argKw (configArgs 3 0 1 (-1)))).bind compose = .error .overflow := by decide +kernel

/-! ## C24 -/

/-- Supervision.Get(statusUpdates=u, sessionID=n, command=c) -/
def supervisionGet (u : Bool) (n : Nat) (c : Msg) : Msg :=
  .wrap 0x6C01 [("statusUpdates", .num .flag (if u then 1 else 0)), ("sessionID", .num (.bits 6) n)] c

/-- **C24** as wanted: a supervised command that can be composed and decoded by itself comes back. -/
def C24_statement : Prop :=
  ∀ u n c cb c', n < 64 → compose c = .ok cb → decode cb = .ok c' →
    ∃ b m, compose (supervisionGet u n c) = .ok b ∧ decode b = .ok m ∧ m.hid = 0x6C01 ∧ m.command = some c'

/-- **C24** fails: composing leaves out the length of the command. Supervising a "switch binary get" gives bytes that do not decode. -/
theorem C24_violated : ¬ C24_statement := by
  intro h
  let c : Msg := .known 0x2502 []
  obtain ⟨b, m, h1, h2, -⟩ := h false 1 c [0x25, 0x02] c (by omega) (by decide +kernel) (by decide +kernel)
  have e : compose (supervisionGet false 1 c) = .ok [0x6C, 0x01, 0x01, 0x25, 0x02] := by decide +kernel
  rw [e] at h1
  cases h1
  have e2 : decode [0x6C, 0x01, 0x01, 0x25, 0x02] = .error .eof := by decide +kernel
  rw [e2] at h2
  cases h2

/-- **C24**, what holds of decoding: a frame with the length of the command in front of it yields the command, whatever follows.
Missing: composing writes no length, see `C24_violated`. -/
theorem C24_decode_partial (b : UInt8) (cb tl : Bytes) (h : cb.length < 256) :
    decode (0x6C :: 0x01 :: b :: UInt8.ofNat cb.length :: (cb ++ tl)) =
      (do let c ← decode cb
          pure (.wrap 0x6C01 [("statusUpdates", .num .flag (b.toNat / 128 % 2 : Nat)), ("-", .num (.reserved 1) (b.toNat / 64 % 2 : Nat)),
            ("sessionID", .num (.bits 6) (b.toNat % 64 : Nat))] c)) := by
  rw [decode_def (d := Reg.Supervision.Get) (by decide +kernel) _ _ (by decide)]
  simp only [Reg.Supervision.Get]
  step_bits 1 b
  step_bits 1 b
  step_bits 6 b
  have e1 := read_byte [0x6C, 0x01, b] (cb ++ tl) (UInt8.ofNat cb.length)
  have e2 := read_value ([0x6C, 0x01, b] ++ [UInt8.ofNat cb.length]) cb tl cb.length rfl
  have el := read_left [0x6C, 0x01, b] (UInt8.ofNat cb.length :: (cb ++ tl))
  simp only [List.cons_append, List.nil_append, List.length_cons, List.length_nil, Nat.reduceAdd, Nat.reduceMul] at e1 e2 el
  simp only [parseFields, el]
  rw [if_neg (by omega), if_pos trivial]
  simp only [e1, bind, Except.bind, toNat_length h, e2]
  have hd := deserMsg_at [] cb ((b :: UInt8.ofNat cb.length :: (cb ++ tl)).length + 2) (by simp; omega)
  simp only [List.nil_append, List.length_nil, Nat.mul_zero] at hd
  rw [← hd]
  simp only [Reader.new]
  cases hx : deserMsg registry ((b :: UInt8.ofNat cb.length :: (cb ++ tl)).length + 2) ⟨cb, 0⟩ with
  | error e => rfl
  | ok p =>
    obtain ⟨c, r⟩ := p
    simp only [noReader, pure, Except.pure, MsgDef.hid, Nat.div_one]
    have h2 : ((b.toNat / 128 % 2 : Nat) : Int) % 2 = (b.toNat / 128 % 2 : Nat) := by omega
    rw [h2]

/-- A supervised "switch binary get" with session 5 and status updates. -/
example : decode [0x6C, 0x01, 0x85, 0x02, 0x25, 0x02] =
    .ok (.wrap 0x6C01 [("statusUpdates", .num .flag 1), ("-", .num (.reserved 1) 0), ("sessionID", .num (.bits 6) 5)] (.known 0x2502 [])) := by
  decide +kernel

/-! ## C25 -/

/-- Reading the command class list with `nodeInfoLength` already read. -/
theorem nodeAdd_read (acc : Dict String Val) (pre rest : Bytes) (n : Nat) (hn : intAttr acc "nodeInfoLength" = .ok (n : Int)) (hp : 7 ≤ pre.length) :
    ∃ r, runHook .nodeAddCommandClass acc ⟨pre ++ rest, 8 * pre.length⟩ = .ok (.byteList (rest.take (n - 7)), r) := by
  simp only [runHook, hn, bind, Except.bind, pure, Except.pure, read_left]
  by_cases h : (n : Int) - 7 > (rest.length : Int)
  · rw [if_pos h, List.take_of_length_le (by omega)]
    refine ⟨_, congrArg (fun x => Except.ok (Val.byteList x, _)) ?_⟩
    simp only [Reader.remaining]
    rw [show 8 * pre.length / 8 = pre.length by omega, List.drop_left]
  · rw [if_neg h]
    have hz : ∃ r, (Reader.mk (pre ++ rest) (8 * pre.length)).valueZ ((n : Int) - 7) = .ok (rest.take (n - 7), r) := by
      simp only [Reader.valueZ]
      rw [if_neg (by simp; omega), show 8 * pre.length / 8 = pre.length by omega]
      refine ⟨_, congrArg (fun x => Except.ok (x, _)) ?_⟩
      rw [pySlice_nonneg _ _ _ (by omega) (by simp; omega)]
      by_cases h7 : n ≤ 7
      · rw [List.drop_eq_nil_of_le (by simp; omega), show n - 7 = 0 by omega]; rfl
      · rw [show ((pre.length : Int) + ((n : Int) - 7)).toNat = pre.length + (n - 7) by omega, List.take_length_add_append, List.drop_left]
    obtain ⟨r, hz⟩ := hz
    rw [hz]
    exact ⟨r, rfl⟩

theorem second_bit (b : UInt8) {x : Int} (h : x = ((b.toNat / 64 % 2 : Nat) % 2 : Int)) : (x != 0) = b.toNat.testBit 6 := by
  subst h
  rw [Nat.testBit_eq_decide_div_mod_eq, show 2 ^ 6 = 64 from rfl]
  rcases Nat.mod_two_eq_zero_or_one (b.toNat / 64) with h | h <;> rw [h] <;> rfl

theorem top_bit (b : UInt8) {x : Int} (h : x = ((b.toNat / 128 % 2 : Nat) % 2 : Int)) : (x != 0) = b.toNat.testBit 7 := by
  subst h
  rw [Nat.testBit_eq_decide_div_mod_eq, show 2 ^ 7 = 128 from rfl]
  rcases Nat.mod_two_eq_zero_or_one (b.toNat / 128) with h | h <;> rw [h] <;> rfl

/-- **C25.** The attributes of a NodeAddStatus report are the bytes and bits of the fixed part. Its command class list is the next `nodeInfoLength - 7` bytes after the fixed part, or all
that remain if there are fewer (none if the length is below 7). -/
theorem C25_command_classes (seq st res node len f1 f2 bdc gdc sdc : UInt8) (rest : Bytes) (hne : rest ≠ []) :
    ∃ m, decode (0x34 :: 0x02 :: seq :: st :: res :: node :: len :: f1 :: f2 :: bdc :: gdc :: sdc :: rest) = .ok m ∧ m.hid = 0x3402 ∧
      (m.num? "seqNo" = some (seq.toNat : Int) ∧ m.num? "status" = some (st.toNat : Int) ∧ m.num? "newNodeID" = some (node.toNat : Int) ∧
        m.num? "nodeInfoLength" = some (len.toNat : Int)) ∧
      (m.flag "listening" = f1.toNat.testBit 7 ∧ m.flag "optFunc" = f2.toNat.testBit 7) ∧
      (m.num? "basicDeviceClass" = some (bdc.toNat : Int) ∧ m.num? "genericDeviceClass" = some (gdc.toNat : Int) ∧ m.num? "specificDeviceClass" = some (sdc.toNat : Int)) ∧
      m.attr "commandClass" = some (.byteList (rest.take (len.toNat - 7))) := by
  rw [decode_def (d := Reg.NetworkManagementInclusion.NodeAddStatus) (by decide +kernel) _ _ (by decide)]
  simp only [Reg.NetworkManagementInclusion.NodeAddStatus]
  step_u8 seq
  step_u8 st
  step_bits 8 res
  step_u8 node
  step_u8 len
  step_bits 1 f1
  step_bits 7 f1
  step_bits 1 f2
  step_bits 7 f2
  step_u8 bdc
  step_u8 gdc
  step_u8 sdc
  rw [show 0x34 :: 0x02 :: seq :: st :: res :: node :: len :: f1 :: f2 :: bdc :: gdc :: sdc :: rest =
      [0x34, 0x02, seq, st, res, node, len, f1, f2, bdc, gdc, sdc] ++ rest from rfl, parse_last (start := 96) rfl (by simp), if_neg hne]
  obtain ⟨r, e⟩ := nodeAdd_read [("seqNo", .num (.uint 1) seq.toNat), ("status", .num (.uint 1) st.toNat), ("-", .num (.reserved 8) (res.toNat / 1 % 256 : Nat)),
    ("newNodeID", .num (.uint 1) node.toNat), ("nodeInfoLength", .num (.uint 1) len.toNat),
    ("listening", .num .flag ((f1.toNat / 128 % 2 : Nat) % 2 : Int)), ("zwaveProtocolSpecific", .num (.reserved 7) (f2.toNat / 1 % 128 : Nat)),
    ("optFunc", .num .flag ((f2.toNat / 128 % 2 : Nat) % 2 : Int)), ("basicDeviceClass", .num (.uint 1) bdc.toNat),
    ("genericDeviceClass", .num (.uint 1) gdc.toNat), ("specificDeviceClass", .num (.uint 1) sdc.toNat)]
    [0x34, 0x02, seq, st, res, node, len, f1, f2, bdc, gdc, sdc] rest len.toNat rfl (by simp)
  · simp only [List.length_cons, List.length_nil, Nat.reduceAdd, Nat.reduceMul] at e
    simp only [readField]
    rw [e]
    refine ⟨_, rfl, rfl, ⟨rfl, rfl, rfl, rfl⟩, ⟨?_, ?_⟩, ⟨rfl, rfl, rfl⟩, rfl⟩
    · rw [← top_bit f1 rfl]; rfl
    · rw [← top_bit f2 rfl]; rfl

example : (decode [0x34, 0x02, 1, 6, 0, 9, 9, 0, 0, 4, 0x10, 1, 0x25, 0x86, 0x72]).map (·.attr "commandClass") =
    .ok (some (.byteList [0x25, 0x86])) := by decide +kernel

/-! ## C26 -/

/-- **C26.** A group command list report with an even length yields the advertised (class, command) pairs in order. -/
theorem C26_command_list (gid len : UInt8) (ps : List (UInt8 × UInt8)) (tl : Bytes) (hl : len.toNat = 2 * ps.length) :
    ∃ m, decode (0x59 :: 0x06 :: gid :: len :: (ps.flatMap (fun p => [p.1, p.2]) ++ tl)) = .ok m ∧ m.hid = 0x5906 ∧
      m.num? "groupingIdentifier" = some (gid.toNat : Int) ∧ m.attr "commandClass" = some (.pairs ps) := by
  rw [decode_def (d := Reg.AssociationGrpInfo.GroupCommandListReport) (by decide +kernel) _ _ (by decide)]
  simp only [Reg.AssociationGrpInfo.GroupCommandListReport]
  step_u8 gid
  obtain ⟨r, e⟩ := agiPairs_ok ps ([0x59, 0x06, gid] ++ [len]) tl
  have e1 := read_byte [0x59, 0x06, gid] (ps.flatMap (fun p => [p.1, p.2]) ++ tl) len
  rw [show 0x59 :: 0x06 :: gid :: len :: (ps.flatMap (fun p => [p.1, p.2]) ++ tl) =
    [0x59, 0x06, gid] ++ len :: (ps.flatMap (fun p => [p.1, p.2]) ++ tl) from rfl, parse_last (start := 24) rfl (by simp), if_neg (by simp)]
  simp only [List.length_cons, List.length_nil, Nat.reduceAdd, Nat.reduceMul] at e1
  simp only [readField, runHook, e1, bind, Except.bind]
  rw [show (len.toNat + 1) / 2 = ps.length by omega]
  rw [e]
  exact ⟨_, rfl, rfl, rfl, rfl⟩

/-- **C26.** A truncated command list raises EOFError. -/
theorem C26_command_list_truncated (gid len : UInt8) (b : Bytes) (hl : b.length < len.toNat) :
    decode (0x59 :: 0x06 :: gid :: len :: b) = .error .eof := by
  rw [decode_def (d := Reg.AssociationGrpInfo.GroupCommandListReport) (by decide +kernel) _ _ (by decide)]
  simp only [Reg.AssociationGrpInfo.GroupCommandListReport]
  step_u8 gid
  have e := agiPairs_eof ((len.toNat + 1) / 2) b ([0x59, 0x06, gid] ++ [len]) (by omega)
  have e1 := read_byte [0x59, 0x06, gid] b len
  rw [show 0x59 :: 0x06 :: gid :: len :: b = [0x59, 0x06, gid] ++ len :: b from rfl, parse_last (start := 24) rfl (by simp), if_neg (by simp)]
  simp only [List.length_cons, List.length_nil, Nat.reduceAdd, Nat.reduceMul] at e1
  simp only [readField, runHook, e1, bind, Except.bind, e]

/-- A parsed group is the given record. -/
def IsGroup (g : Dict String Int) (r : GroupRec) : Prop :=
  Dict.get? g "groupingIdentifier" = some (r.id.toNat : Int) ∧ Dict.get? g "mode" = some (r.mode.toNat : Int) ∧
  Dict.get? g "profile" = some (beNat [r.profile.1, r.profile.2] : Int) ∧ Dict.get? g "eventCode" = some (beNat [r.event.1, r.event.2] : Int)

/-- **C26.** A group info report yields `groupCount` groups, read from consecutive seven byte records. -/
theorem C26_group_info (b : UInt8) (rs : List GroupRec) (tl : Bytes) (hb : b.toNat % 64 = rs.length)
    (hne : rs.flatMap GroupRec.wire ++ tl ≠ []) :
    ∃ (m : Msg) (gs : List (Dict String Int)), decode (0x59 :: 0x04 :: b :: (rs.flatMap GroupRec.wire ++ tl)) = .ok m ∧ m.hid = 0x5904 ∧
      (m.flag "listMode" = b.toNat.testBit 7 ∧ m.flag "dynamicInfo" = b.toNat.testBit 6 ∧ m.num? "groupCount" = some (rs.length : Int)) ∧
      m.attr "groups" = some (.groups gs) ∧ gs.length = rs.length ∧
      ∀ (i : Nat) (g : Dict String Int) (r : GroupRec), gs[i]? = some g → rs[i]? = some r → IsGroup g r := by
  rw [decode_def (d := Reg.AssociationGrpInfo.GroupInfoReport) (by decide +kernel) _ _ (by decide)]
  simp only [Reg.AssociationGrpInfo.GroupInfoReport]
  step_bits 1 b
  step_bits 1 b
  step_bits 6 b
  obtain ⟨r, e⟩ := agiGroups_ok rs [0x59, 0x04, b] tl
  rw [show 0x59 :: 0x04 :: b :: (rs.flatMap GroupRec.wire ++ tl) = [0x59, 0x04, b] ++ (rs.flatMap GroupRec.wire ++ tl) from rfl,
    parse_last (start := 24) rfl (by simp), if_neg hne]
  simp only [List.length_cons, List.length_nil, Nat.reduceAdd, Nat.reduceMul] at e
  simp only [readField, runHook, intAttr, Dict.get?, String.reduceEq, if_true, if_false, bind, Except.bind, Nat.div_one, hb, Int.toNat_natCast, e]
  simp only [pure, Except.pure, coerce, typeOf, List.find?, String.reduceEq, decide_true, decide_false]
  refine ⟨_, rs.map GroupRec.dict, rfl, rfl, ⟨?_, ?_, rfl⟩, rfl, by simp, ?_⟩
  · rw [← top_bit b rfl]; rfl
  · rw [← second_bit b rfl]; rfl
  intro i g r hg hr
  rw [List.getElem?_map, hr] at hg
  cases hg
  refine ⟨rfl, rfl, ?_, ?_⟩
  · simp only [GroupRec.dict, Dict.get?, String.reduceEq, if_false, if_true, beNat]; simp
  · simp only [GroupRec.dict, Dict.get?, String.reduceEq, if_false, if_true, beNat]; simp

example : (decode [0x59, 0x04, 0x02, 1, 0, 0, 1, 0, 0, 0, 2, 0, 0x20, 1, 0, 0, 7]).map (fun m => (m.attr "groups").isSome) = .ok true := by
  decide +kernel

/-! ## C27 -/

/-- **C27.** A failing node notification yields the queue handle when it is a single byte and when it is the last byte of a 16 byte address. -/
theorem C27_node_failing (handle : UInt8) (addr : Bytes) (ha : addr.length = 15) :
    (∃ m, decode [0x69, 0x06, handle] = .ok m ∧ m.hid = 0x6906 ∧ m.num? "queueHandle" = some (handle.toNat : Int)) ∧
    (∃ m, decode (0x69 :: 0x06 :: (addr ++ [handle])) = .ok m ∧ m.hid = 0x6906 ∧ m.num? "queueHandle" = some (handle.toNat : Int)) := by
  constructor
  · rw [decode_def (d := Reg.Mailbox.NodeFailing) (by decide +kernel) _ _ (by decide)]
    simp only [Reg.Mailbox.NodeFailing]
    have e1 := read_byte [0x69, 0x06] [] handle
    have el := read_left [0x69, 0x06] [handle]
    rw [show [0x69, 0x06, handle] = [0x69, 0x06] ++ [handle] from rfl, parse_last (start := 16) rfl (by simp), if_neg (by simp)]
    simp only [List.length_cons, List.length_nil, Nat.reduceAdd, Nat.reduceMul] at e1 el
    simp only [readField, runHook, el]
    rw [if_neg (by omega), e1]
    simp only [bind, Except.bind, pure, Except.pure, coerce, typeOf, List.find?, String.reduceEq, decide_true, reduceCtorEq, if_false]
    exact ⟨_, rfl, rfl, rfl⟩
  · rw [decode_def (d := Reg.Mailbox.NodeFailing) (by decide +kernel) _ _ (by decide)]
    simp only [Reg.Mailbox.NodeFailing]
    have e1 := read_byte ([0x69, 0x06] ++ addr) [] handle
    have el := read_left [0x69, 0x06] (addr ++ [handle])
    rw [show 0x69 :: 0x06 :: (addr ++ [handle]) = [0x69, 0x06] ++ (addr ++ [handle]) from rfl, parse_last (start := 16) rfl (by simp), if_neg (by simp)]
    simp only [List.length_cons, List.length_nil, Nat.reduceAdd, Nat.reduceMul, List.length_append, ha] at e1 el
    simp only [readField, runHook, el, Reader.advance]
    rw [if_pos (by rfl), ← List.append_assoc, show 16 + 8 * 15 = 136 from rfl, e1]
    simp only [bind, Except.bind, pure, Except.pure, coerce, typeOf, List.find?, String.reduceEq, decide_true, reduceCtorEq, if_false]
    exact ⟨_, rfl, rfl, rfl⟩

/-! ## C28 -/

/-- **C28.** The metadata of a provisioning list report: for each type the payload of its last entry and nothing else, provided all
types are known; otherwise ValueError. `dsk` is the (16 byte or absent) key in front of the metadata. -/
theorem C28_metadata (seq remaining b : UInt8) (dsk : Bytes) (es : List (Nat × Bool × Bytes)) (hd : dsk.length = 16 ∨ dsk.length = 0)
    (hb : b.toNat % 32 = dsk.length) (hes : ∀ e ∈ es, e.1 < 128 ∧ e.2.2.length < 256) (hne : es ≠ []) :
    ((∀ e ∈ es, KnownMeta e.1) → ∃ m d, decode (0x78 :: 0x04 :: seq :: remaining :: b :: (dsk ++ metaWire es)) = .ok m ∧ m.hid = 0x7804 ∧
      (m.num? "seqNo" = some (seq.toNat : Int) ∧ m.num? "remainingCount" = some (remaining.toNat : Int)) ∧ m.attr "dsk" = some (.dsk dsk) ∧ m.attr "metaDataExtension" = some (.metaExt d) ∧ ∀ t, Dict.get? d t = lastEntry es t) ∧
    ((∃ e ∈ es, ¬ KnownMeta e.1) → decode (0x78 :: 0x04 :: seq :: remaining :: b :: (dsk ++ metaWire es)) = .error .value) := by
  change ((∀ e ∈ es, e.1 ∈ metaTypes) → _) ∧ ((∃ e ∈ es, e.1 ∉ metaTypes) → _)
  have hw : metaWire es ≠ [] := by
    cases es with
    | nil => exact absurd rfl hne
    | cons e es => simp [metaWire]
  rw [decode_def (d := Reg.NodeProvisioning.ListIterationReport) (by decide +kernel) _ _ (by decide)]
  simp only [Reg.NodeProvisioning.ListIterationReport]
  step_u8 seq
  step_u8 remaining
  step_bits 3 b
  step_bits 5 b
  rw [show 0x78 :: 0x04 :: seq :: remaining :: b :: (dsk ++ metaWire es) = [0x78, 0x04, seq, remaining, b] ++ (dsk ++ metaWire es) from rfl]
  have el := read_left [0x78, 0x04, seq, remaining, b] (dsk ++ metaWire es)
  simp only [List.length_cons, List.length_nil, Nat.reduceAdd, Nat.reduceMul] at el
  rw [parseFields_step (by simp) (by
    rw [el]
    have : 0 < (metaWire es).length := List.length_pos_iff.mpr hw
    simp; omega)]
  have hN : deserDskN ⟨[0x78, 0x04, seq, remaining, b] ++ (dsk ++ metaWire es), 40⟩ dsk.length =
      .ok (dsk, ⟨([0x78, 0x04, seq, remaining, b] ++ dsk) ++ metaWire es, 8 * ([0x78, 0x04, seq, remaining, b] ++ dsk).length⟩) := by
    have e := read_value [0x78, 0x04, seq, remaining, b] dsk (metaWire es) dsk.length rfl
    simp only [List.length_cons, List.length_nil, Nat.reduceAdd, Nat.reduceMul] at e
    rcases hd with hd | hd
    · rw [deserDskN, if_neg (by omega), if_neg (by omega), e]
    · have : dsk = [] := List.length_eq_zero_iff.mp hd
      subst this
      rfl
  simp only [readField, runHook, intAttr, Dict.get?, String.reduceEq, if_true, if_false, bind, Except.bind, Nat.div_one, hb, Int.toNat_natCast, hN,
    pure, Except.pure, coerce, typeOf, List.find?, decide_true, decide_false, Dict.set]
  rw [parse_last rfl (by simp), if_neg hw]
  obtain ⟨r, e⟩ := metaLoop_ok es ((([0x78, 0x04, seq, remaining, b] ++ dsk) ++ metaWire es).length + 1) ([0x78, 0x04, seq, remaining, b] ++ dsk) [] hes (by
    have : ∀ es : List (Nat × Bool × Bytes), es.length ≤ (metaWire es).length := by
      intro es
      induction es with
      | nil => simp
      | cons x xs ih => simp only [metaWire, List.flatMap_cons, List.length_append, List.length_cons] at ih ⊢; omega
    have := this es
    simp only [List.length_append, List.length_cons, List.length_nil]; omega)
  have hkeys := foldl_set_keys es []
  simp only [readField, deserVal, e, bind, Except.bind, pure, Except.pure, typeOf, List.find?, String.reduceEq, decide_true, decide_false, coerce]
  constructor
  · intro hk
    rw [if_pos]
    · refine ⟨_, _, rfl, rfl, ⟨rfl, rfl⟩, rfl, rfl, ?_⟩
      intro t
      rw [foldl_set_get]
      simp
    · rw [List.all_eq_true]
      intro p hp
      have : p.1 ∈ Dict.keys (es.foldl (fun d e => Dict.set d e.1 e.2.2) []) := List.mem_map.mpr ⟨p, hp, rfl⟩
      rcases (hkeys p.1).mp this with h | ⟨e', he', h'⟩
      · simp [Dict.keys] at h
      · simp only [decide_eq_true_eq]; rw [← h']; exact hk e' he'
  · rintro ⟨e', he', h'⟩
    rw [if_neg]
    intro hall
    rw [List.all_eq_true] at hall
    have := (hkeys e'.1).mpr (Or.inr ⟨e', he', rfl⟩)
    obtain ⟨p, hp, hp'⟩ := List.mem_map.mp this
    have := hall p hp
    simp only [decide_eq_true_eq] at this
    rw [hp'] at this
    exact h' this

/-- A name and a location without a key; a second name entry would replace the first. -/
example : (decode ([0x78, 0x04, 1, 0, 0] ++ metaWire [(0x32, false, [65]), (0x33, true, [66, 67]), (0x32, false, [68])])).map (·.attr "metaDataExtension") =
    .ok (some (.metaExt [(0x32, [68]), (0x33, [66, 67])])) := by decide +kernel

end Props

import Verif.Model.Meter
import Verif.Props.Values
/-!
# Property theorems C105: meter reports
-/
namespace Props.Meter
open Spec Model Model.Meter

theorem lor4 (scale : Nat) (h : scale < 4) : scale ||| 4 = 4 + scale := by
  have : scale = 0 ∨ scale = 1 ∨ scale = 2 ∨ scale = 3 := by omega
  rcases this with h | h | h | h <;> subst h <;> rfl

/-- **C105.** A meter report with any rate type, meter type, value, scale and time since the last report, in the layout of the standard: the attributes are those sent, and the scale
is the number with the bit of the first byte above the two bits of the second one. It is an electric meter scale exactly for electric meters (type 1). -/
theorem C105_report (high rate ty : Nat) (mant tl : Bytes) (precision scale : Nat) (t1 t2 : UInt8) (hh : high < 2) (hr : rate < 4) (hty : ty < 32) (hp : precision < 8)
    (hs : scale < 4) (hm : mant.length < 8) :
    ∃ m, decode (0x32 :: 0x02 :: UInt8.ofNat (high * 128 + rate * 32 + ty) :: UInt8.ofNat (precision * 32 + scale * 8 + mant.length) :: (mant ++ t1 :: t2 :: tl)) = .ok m ∧
      m.hid = 0x3202 ∧ m.num? "rateType" = some (rate : Int) ∧ m.num? "meterType" = some (ty : Int) ∧
      m.attr "meterValue" = some (.float (signedOf (8 * mant.length) (beNat mant)) precision mant.length scale) ∧
      m.num? "deltaTime" = some ((t1.toNat * 256 + t2.toNat : Nat) : Int) ∧
      Meter.scale m = .ok (if ty = 1 then .electric (4 * high + scale) else .plain (4 * high + scale)) := by
  have hb : (UInt8.ofNat (high * 128 + rate * 32 + ty)).toNat = high * 128 + rate * 32 + ty := toNat_length (by omega)
  generalize UInt8.ofNat (high * 128 + rate * 32 + ty) = c at hb
  have e := C22_scaled_value [0x32, 0x02, c] mant (t1 :: t2 :: tl) precision scale hp hs hm
  generalize UInt8.ofNat (precision * 32 + scale * 8 + mant.length) = b at e
  rw [decode_def (d := Reg.Meter.Report) (by decide +kernel) _ _ (by decide)]
  simp only [Reg.Meter.Report]
  step_bits 1 c
  step_bits 2 c
  step_bits 5 c
  rw [parseFields_step (by decide) (by simp [Reader.bytesLeft]; omega)]
  simp only [List.length_cons, List.length_nil, Nat.reduceAdd, Nat.reduceMul, List.cons_append, List.nil_append] at e
  simp only [readField, deserVal, e, bind, Except.bind, coerce]
  step_attr
  have e2 := read_value ([0x32, 0x02, c, b] ++ mant) [t1, t2] tl 2 rfl
  have hsh : (0x32 :: 0x02 :: c :: b :: (mant ++ t1 :: t2 :: tl) : Bytes) = [0x32, 0x02, c, b] ++ mant ++ (t1 :: t2 :: tl) := by simp
  rw [hsh, parse_last (by simp; omega) (by decide), if_neg (by simp)]
  rw [show 8 * ([0x32, 0x02, c, b] ++ mant).length = 8 * (3 + 1 + mant.length) by simp; omega] at e2
  simp only [List.append_assoc, List.cons_append, List.nil_append] at e2 ⊢
  simp only [readField, deserVal, deserNum, e2, bind, Except.bind, pure, Except.pure]
  step_attr
  have q1 : c.toNat / 128 % 2 = high := by omega
  have q2 : c.toNat / 32 % 4 = rate := by omega
  have q3 : c.toNat / 1 % 32 = ty := by omega
  refine ⟨_, rfl, rfl, ?_, ?_, rfl, ?_, ?_⟩
  · simp [Msg.num?, Msg.attr, Msg.attrs, Dict.get?, q2]
  · simp [Msg.num?, Msg.attr, Msg.attrs, Dict.get?]; omega
  · simp [Msg.num?, Msg.attr, Msg.attrs, Dict.get?, fromBytesBE]
  · rw [q1, q2, q3]
    have e4 := lor4 scale hs
    have hsc : scale = 0 ∨ scale = 1 ∨ scale = 2 ∨ scale = 3 := by omega
    have hty1 : ((ty : Nat) : Int) = 1 ↔ ty = 1 := by omega
    rcases (show high = 0 ∨ high = 1 by omega) with h | h <;> subst h <;>
      simp only [Meter.scale, getAttr, Msg.flag, Msg.num?, Msg.attr, Msg.attrs, Dict.get?, String.reduceEq, if_true, if_false, Option.some.injEq, hty1]
    · by_cases ht : ty = 1
      · rcases hsc with h | h | h | h <;> subst h <;> simp [ht, electricScales]
      · simp [ht]
    · by_cases ht : ty = 1
      · rcases hsc with h | h | h | h <;> subst h <;> simp [ht, electricScales]
      · simp [ht, e4]

/-- **C105.** The scale of a report that ends before its value raises AttributeError; nothing is guessed. -/
theorem C105_truncated (c : UInt8) : ∃ m, decode [0x32, 0x02, c] = .ok m ∧ Meter.scale m = .error .attribute := by
  rw [decode_def (d := Reg.Meter.Report) (by decide +kernel) _ _ (by decide)]
  simp only [Reg.Meter.Report]
  step_bits 1 c
  step_bits 2 c
  step_bits 5 c
  rw [show ∀ all dec fs acc, parseFields all dec fs ⟨[0x32, 0x02, c], 24⟩ acc = .ok (acc, none, ⟨[0x32, 0x02, c], 24⟩) from fun all dec fs acc => by
    cases fs <;> simp [parseFields, Reader.bytesLeft]]
  refine ⟨_, rfl, ?_⟩
  have hf : registry.find? (fun d => d.hid = Reg.Meter.Report.hid) = some Reg.Meter.Report := by decide +kernel
  have key : ∀ h a, registry.find? (fun d => d.hid = h) = some Reg.Meter.Report → Dict.get? a "meterValue" = none → Meter.scale (.known h a) = .error .attribute := by
    intro h a hf ha
    have hg : getAttr registry (.known h a) "meterValue" = none := by
      unfold getAttr
      rw [show Msg.attr (.known h a) "meterValue" = none from ha]
      simp only [show (Msg.known h a).hid = h from rfl]
      rw [hf]
      rfl
    simp only [Meter.scale, hg]
  exact key _ _ hf rfl

/-- 230.5 volts, imported: the scale of voltage has its upper bit in the first byte. And 12 cubic metres of gas. -/
example : ∃ m1 m2, decode [0x32, 0x02, 0xA1, 0x22, 0x09, 0x01, 0x00, 0x00] = .ok m1 ∧ Meter.scale m1 = .ok (.electric 4) ∧ m1.attr "meterValue" = some (.float 2305 1 2 0) ∧
    decode [0x32, 0x02, 0x02, 0x01, 0x0C, 0x00, 0x00] = .ok m2 ∧ Meter.scale m2 = .ok (.plain 0) := by
  refine ⟨_, _, rfl, ?_, ?_, rfl, ?_⟩ <;> decide +kernel

end Props.Meter

import Verif.Lemmas.Overflow
import Verif.Props.Messages
/-!
# Property theorem C12: sub-byte attributes set to values that do not fit
-/
namespace Props
open Spec Model

/-- The arguments `a` with `name` set to the integer `v`. -/
def setInt (a : Args) (name : String) (v : Int) : Args := fun n => if n = name then some (.int v) else a n

/-- **C12**, the property: take arguments that fit a layout and set a sub-byte number to any integer. If the
message can be composed at all, then every other attribute still reads back as it was set. -/
def C12_statement : Prop :=
  ∀ L ∈ layouts, ∀ d ∈ registry, d.name = L.title → ∀ (a : Args) (bits : List Bool), (∀ n ∈ reservedNames, a n = none) →
    L.wire a = some bits → (∀ s ∈ L.slots, s.Unambiguous a) →
    ∀ name n, Slot.num name n ∈ L.slots → 0 < n → n < 8 → ∀ (v : Int) (m : Msg) (b : Bytes),
      construct d (argKw (setInt a name v)) = .ok m → compose m = .ok b →
      ∃ m', decode b = .ok m' ∧ ∀ s ∈ L.slots, ∀ k x, s.readBack a = some (k, x) → k ≠ name →
        (getAttr registry m' k).bind valArg = some x

/-- All attributes of a `Meter.Get` zero. -/
def zeroMeterGet : Args := fun n => if n = "rateType" ∨ n = "scale" ∨ n = "scale2" then some (.int 0) else none

/-- **C12** is violated: `Meter.Get(rateType=0, scale=9, scale2=0)` is composed with rate type 1. -/
theorem C12_violated : ¬ C12_statement := by
  intro h
  have h1 := h ⟨"Meter.Get", 0x32, 0x01, [.num "rateType" 2, .num "scale" 3, .zero 3, .num "scale2" 8]⟩
    (by decide +kernel) Reg.Meter.Get (by decide +kernel) rfl zeroMeterGet
    (bitsOf [0x32, 0x01, 0x00, 0x00]) (by decide +kernel) (by decide +kernel)
    (by intro s hs; simp at hs; rcases hs with rfl | rfl | rfl | rfl <;> trivial) "scale" 3 (by decide +kernel) (by decide) (by decide) 9
    (.known 0x3201 [("rateType", .num (.bits 2) 0), ("scale", .num (.bits 3) 9), ("scale2", .num (.uint 1) 0)])
    [0x32, 0x01, 0x48, 0x00] (by decide +kernel) (by decide +kernel)
  obtain ⟨m', hd, hr⟩ := h1
  have hm : m' = .known 0x3201 [("rateType", .num (.bits 2) 1), ("scale", .num (.bits 3) 1), ("-", .num (.reserved 3) 0),
      ("scale2", .num (.uint 1) 0)] := by
    have : decode [0x32, 0x01, 0x48, 0x00] = .ok (.known 0x3201 [("rateType", .num (.bits 2) 1),
      ("scale", .num (.bits 3) 1), ("-", .num (.reserved 3) 0), ("scale2", .num (.uint 1) 0)]) := by decide +kernel
    rw [this] at hd; exact (Except.ok.inj hd).symm
  have := hr (.num "rateType" 2) (by simp) "rateType" (.int 0) (by rfl) (by decide)
  rw [hm] at this
  simp [getAttr, Msg.attr, Msg.attrs, Dict.get?, valArg] at this

/-- **C12**, what holds: for a sub-byte number whose slot begins at bit `s` of its byte, composing raises
ValueError if the value is negative or at least `2^(s+n)`; for the first slot of a byte (`s = 0`) this is every value
that does not fit. If composing succeeds, the slot itself carries the value modulo `2^n`, and everything after the slot
and all bytes before its byte are unchanged, so only the slots before it in the same byte can be damaged.
Missing for the full property: those slots. -/
theorem C12_contained_partial : ∀ L ∈ layouts, ∃ d ∈ registry, d.name = L.title ∧
    ∀ (a : Args) (pre post : List Slot) (name : String) (n : Nat) (x y : List Bool) (v : Int),
      (∀ n ∈ reservedNames, a n = none) → L.slots = pre ++ Slot.num name n :: post → 0 < n → n < 8 →
      slotsWire a pre = some x → slotsWire a post = some y → a name = some (.int v) →
      ∃ m, construct d (argKw a) = .ok m ∧
        ((v < 0 ∨ 2 ^ (x.length % 8 + n) ≤ v) → compose m = .error .value) ∧
        (0 ≤ v → v < 2 ^ (x.length % 8 + n) → ∃ b q, compose m = .ok b ∧
          bitsOf b = q ++ toBits n (v.toNat % 2 ^ n) ++ y ∧ q.length = 16 + x.length ∧
          q.take (16 + x.length - x.length % 8) =
            (toBits 8 L.cc ++ toBits 8 L.cmd ++ x).take (16 + x.length - x.length % 8)) := by
  intro L hL
  obtain ⟨d, hd, hm⟩ := layouts_match L hL
  simp only [layoutMatches, Bool.and_eq_true, beq_iff_eq, Bool.or_eq_true, List.all_eq_true, List.contains_iff_mem] at hm
  obtain ⟨⟨⟨⟨⟨⟨h1, h2⟩, h3⟩, h4⟩, h5⟩, -⟩, h7⟩ := hm
  refine ⟨d, hd, h1, ?_⟩
  intro a pre post name n x y v hres hsl hn0 hn8 hx hy hv
  rw [hsl] at h4
  obtain ⟨f1, f, f2, hfs, hf1, hf, hf2⟩ := slotsOf_append h4
  simp only [staticOk, Bool.and_eq_true, decide_eq_true_eq, List.all_eq_true, Option.isNone_iff_eq_none, beq_iff_eq] at h5
  obtain ⟨⟨⟨⟨⟨⟨hcc, hcmd⟩, hal⟩, hcomp⟩, hnd⟩, hdis⟩, hend⟩ := h5
  have hres' : ∀ g ∈ d.fields, isRes g.ty = true → a g.name = none := by
    intro g hg hr
    apply hres; apply h7
    exact List.mem_map.mpr ⟨g, List.mem_filter.mpr ⟨hg, hr⟩, rfl⟩
  have hm1 : ∀ g ∈ f1, g ∈ d.fields := fun g hg => by rw [hfs]; simp [hg]
  have hm2 : ∀ g ∈ f2, g ∈ d.fields := fun g hg => by rw [hfs]; simp [hg]
  have hmf : f ∈ d.fields := by rw [hfs]; simp
  -- the attribute in question is a sub-byte number
  have hty : (f.ty = .ubits n ∨ f.ty = .bits n) ∧ f.name = name := by
    obtain ⟨fn, ft, fp, fc⟩ := f
    cases ft <;> simp only [slotOf, Option.some.injEq, reduceCtorEq, Slot.num.injEq] at hf
    · omega
    · exact ⟨Or.inl (by rw [hf.2]), hf.1⟩
    · exact ⟨Or.inr (by rw [hf.2]), hf.1⟩
  have hco : ∀ g ∈ d.fields, ∀ z, a g.name = some z → ∃ v, coerceInit g.ty (argVal z) = .ok v := by
    intro g hg z hz
    rw [hfs] at hg
    rcases List.mem_append.mp hg with hg | hg
    · exact slotsOf_coerce hf1 hx (fun k hk => hres' k (hm1 k hk)) g hg z hz
    · rcases List.mem_cons.mp hg with rfl | hg
      · rw [hty.2, hv] at hz
        cases hz
        rcases hty.1 with h | h <;> rw [h] <;> exact ⟨_, rfl⟩
      · exact slotsOf_coerce hf2 hy (fun k hk => hres' k (hm2 k hk)) g hg z hz
  obtain ⟨attrs, e, hA, hB⟩ := initAttrs_gen (acc := []) hco hres' hnd
  have hA' : ∀ g ∈ d.fields, Dict.get? attrs g.name = attrVal g a := by
    intro g hg
    cases hr : isRes g.ty with
    | false =>
      rw [hA g hg hr]
      cases h : a g.name <;> simp [attrVal, h]
    | true =>
      rw [hB _ (Or.inr (hres' g hg hr))]
      simp [attrVal, hres' g hg hr]
  refine ⟨.known d.hid attrs, by simp [construct, e, bind, Except.bind, pure, Except.pure], ?_⟩
  obtain ⟨w1, e1, ok1, b1, s1⟩ := addBytes_uint (w := Writer.new) (v := d.cc) (n := 1) rfl (by omega) (by omega)
  obtain ⟨w2, e2, ok2, b2, s2⟩ := addBytes_uint (w := w1) (v := d.cmd) (n := 1) s1 (by omega) (by omega)
  rw [hfs, aligned_append, Bool.and_eq_true] at hal
  obtain ⟨w3, e3, ok3, b3, s3⟩ := composeFields_ok (cmd := none) hf1 (fun g hg => hcomp g (hm1 g hg)) hx
    (fun g hg => hres' g (hm1 g hg)) (fun g hg => hA' g (hm1 g hg)) ok2 (by rw [s2]; exact hal.1)
  have hbits3 : w3.bits = toBits 8 L.cc ++ toBits 8 L.cmd ++ x := by
    rw [b3, b2, b1, Writer.bits_new, ← h2, ← h3]; simp
  have hlen3 : w3.bits.length = 16 + x.length := by rw [hbits3]; simp; omega
  have hst : w3.start = x.length % 8 := by
    rw [← writer_bits_length ok3, hlen3]; omega
  have hal2 := hal.2
  rw [← s2, ← s3] at hal2
  simp only [aligned, Bool.and_eq_true] at hal2
  have hfit : w3.start + n ≤ 8 := by
    rcases hty.1 with h | h <;> simp [h, alignOk, subBits] at hal2 <;> omega
  have hfield : composeField attrs none f w3 = w3.addBits v n := by
    have hg := hA' f hmf
    rw [hty.2] at hg
    rcases hty.1 with h | h <;>
      simp [composeField, hg, attrVal, hty.2, hv, h, argVal, coerceInit, Except.toOption, serVal, hcomp f hmf]
  have hall : compose (.known d.hid attrs) = (do
      let w ← w3.addBits v n
      let w ← composeFields attrs none f2 w
      pure w.data) := by
    simp only [compose, composeWith, find_hid d hd, composeDef]
    rw [e1]
    simp only [bind, Except.bind]
    rw [e2, hfs]
    simp only
    rw [composeFields_append e3]
    simp only [composeFields, hfield, bind, Except.bind]
    cases w3.addBits v n <;> rfl
  rw [hall, ← hst]
  constructor
  · rintro (hneg | hbig)
    · rw [addBits_neg ok3 hneg]; rfl
    · obtain ⟨k, rfl⟩ := Int.eq_ofNat_of_zero_le (a := v) (by
        have : (0 : Int) < 2 ^ (w3.start + n) := Int.pow_pos (by omega)
        omega)
      rw [addBits_big ok3 (by exact_mod_cast hbig)]; rfl
  · intro h0 hlt
    obtain ⟨k, rfl⟩ := Int.eq_ofNat_of_zero_le h0
    obtain ⟨w4, q, e4, ok4, s4, b4, q4, t4⟩ := addBits_over ok3 hn0 hfit (v := k) (by exact_mod_cast hlt)
    have hoff : nextOff w3.start f.ty = w4.start := by
      rw [s4]
      rcases hty.1 with h | h <;> simp [h, nextOff, subBits]
    obtain ⟨w5, e5, ok5, b5, s5⟩ := composeFields_ok (cmd := none) hf2 (fun g hg => hcomp g (hm2 g hg)) hy
      (fun g hg => hres' g (hm2 g hg)) (fun g hg => hA' g (hm2 g hg)) ok4 (by rw [← hoff]; exact hal2.2)
    have h50 : w5.start = 0 := by
      rw [hfs, List.foldl_append] at hend
      rw [s5, ← hoff, s3, s2]; exact hend
    refine ⟨w5.data, q, by simp [e4, e5, bind, Except.bind, pure, Except.pure], ?_, by rw [q4, hlen3], ?_⟩
    · rw [← Writer.bits_aligned h50, b5, b4]; rfl
    · rw [← hbits3, ← hlen3]; exact t4

/-- The first case applies to `Meter.Get(rateType=4)`, the second to `scale=9`. -/
example : (construct Reg.Meter.Get (argKw (setInt zeroMeterGet "rateType" 4))).bind compose = .error .value ∧
    (construct Reg.Meter.Get (argKw (setInt zeroMeterGet "scale" 9))).bind compose = .ok [0x32, 0x01, 0x48, 0x00] ∧
    slotsWire (setInt zeroMeterGet "scale" 9) [.num "rateType" 2] = some [false, false] := by decide +kernel

end Props

import Verif.Lemmas.ZipOptions
import Verif.Lemmas.Overflow
import Verif.Model.Zip
/-! Helper lemmas: composing Z/IP packets. -/
namespace Model
open Spec

/-- The attributes of the fixed part. -/
def zipPre : List Field := Reg.Zip.ZipPacket.fields.take 17

def zipSlots : List Slot :=
  [.flag "ackRequest", .flag "ackResponse", .flag "nackResponse", .flag "nackWaiting", .flag "nackQueueFull",
   .flag "nackOptionError", .zero 2, .flag "headerExtIncluded", .flag "zwCmdIncluded", .flag "moreInformation",
   .flag "secureOrigin", .zero 4, .num "seqNo" 8, .zero 1, .num "sourceEP" 7, .zero 1, .num "destEP" 7]

theorem zip_slots : slotsOf zipPre = some zipSlots := by decide

theorem zip_fields : Reg.Zip.ZipPacket.fields = zipPre ++ zipTail := by decide

theorem toBits8_ofBits (l : List Bool) (h : l.length = 8) : toBits 8 (UInt8.ofNat (ofBits l)).toNat = l := by
  have hlt := ofBits_lt l
  rw [h] at hlt
  rw [UInt8.toNat_ofNat', Nat.mod_eq_of_lt hlt, ← h, toBits_ofBits]

theorem zip_wire (h : ZipHeader) (hf : h.Fits) : slotsWire h.args zipSlots = some (bitsOf (h.bytes.drop 2)) := by
  have fl : ∀ b : Bool, ((if b then (1 : Int) else 0) % 2 == 1) = b := by decide
  have h7 : ∀ n, n < 128 → toBits 8 (UInt8.ofNat n).toNat = false :: toBits 7 n := by
    intro n hn
    rw [UInt8.toNat_ofNat', Nat.mod_eq_of_lt (by omega), toBits_succ, Nat.div_eq_of_lt (by omega)]
    rfl
  obtain ⟨h1, h2, h3⟩ := hf
  simp only [ZipHeader.bytes, List.drop_succ_cons, List.drop_zero, bitsOf, List.flatMap_cons, List.flatMap_nil, ZipHeader.flags0,
    ZipHeader.flags1]
  rw [toBits8_ofBits _ rfl, toBits8_ofBits _ rfl, h7 _ h2, h7 _ h3, UInt8.toNat_ofNat', Nat.mod_eq_of_lt h1]
  have e1 : (0 ≤ (h.seq : Int) ∧ (h.seq : Int) < 2 ^ 8) := by omega
  have e2 : (0 ≤ (h.src : Int) ∧ (h.src : Int) < 2 ^ 7) := by omega
  have e3 : (0 ≤ (h.dst : Int) ∧ (h.dst : Int) < 2 ^ 7) := by omega
  have a1 : h.args "ackRequest" = some (.int (if h.ackRequest then 1 else 0)) := by simp [ZipHeader.args]
  have a2 : h.args "ackResponse" = some (.int (if h.ackResponse then 1 else 0)) := by simp [ZipHeader.args]
  have a3 : h.args "nackResponse" = some (.int (if h.nackResponse then 1 else 0)) := by simp [ZipHeader.args]
  have a4 : h.args "nackWaiting" = some (.int (if h.nackWaiting then 1 else 0)) := by simp [ZipHeader.args]
  have a5 : h.args "nackQueueFull" = some (.int (if h.nackQueueFull then 1 else 0)) := by simp [ZipHeader.args]
  have a6 : h.args "nackOptionError" = some (.int (if h.nackOptionError then 1 else 0)) := by simp [ZipHeader.args]
  have a7 : h.args "headerExtIncluded" = some (.int (if h.ext then 1 else 0)) := by simp [ZipHeader.args]
  have a8 : h.args "zwCmdIncluded" = some (.int (if h.cmd then 1 else 0)) := by simp [ZipHeader.args]
  have a9 : h.args "moreInformation" = some (.int (if h.more then 1 else 0)) := by simp [ZipHeader.args]
  have a10 : h.args "secureOrigin" = some (.int (if h.secure then 1 else 0)) := by simp [ZipHeader.args]
  have a11 : h.args "seqNo" = some (.int h.seq) := by simp [ZipHeader.args]
  have a12 : h.args "sourceEP" = some (.int h.src) := by simp [ZipHeader.args]
  have a13 : h.args "destEP" = some (.int h.dst) := by simp [ZipHeader.args]
  simp only [slotsWire, zipSlots, Slot.wire, a1, a2, a3, a4, a5, a6, a7, a8, a9, a10, a11, a12, a13, fl, if_pos e1, if_pos e2, if_pos e3,
    Int.toNat_natCast, List.replicate]
  simp

/-- Composing a constructed Z/IP packet gives the header bytes and then the command, or the exception of composing the command. -/
theorem zip_compose_bind (h : ZipHeader) (hf : h.Fits) :
    ∃ attrs, initAttrs (argKw h.args) Reg.Zip.ZipPacket.fields [] = .ok attrs ∧
      ∀ c, compose (.wrap 0x2302 attrs c) = (compose c).bind (fun cb => .ok (h.bytes ++ cb)) := by
  have hx := zip_wire h hf
  have hm1 : ∀ g ∈ zipPre, g ∈ Reg.Zip.ZipPacket.fields := fun g hg => by rw [zip_fields]; simp [hg]
  have hres' : ∀ g ∈ Reg.Zip.ZipPacket.fields, isRes g.ty = true → h.args g.name = none := by
    have : ∀ g ∈ Reg.Zip.ZipPacket.fields, isRes g.ty = true → g.name = "-" ∨ g.name = "_" := by decide
    intro g hg hr
    rcases this g hg hr with e | e <;> rw [e] <;> simp [ZipHeader.args]
  have hco : ∀ g ∈ Reg.Zip.ZipPacket.fields, ∀ z, h.args g.name = some z → ∃ v, coerceInit g.ty (argVal z) = .ok v := by
    intro g hg z hz
    rw [zip_fields] at hg
    rcases List.mem_append.mp hg with hg | hg
    · exact slotsOf_coerce zip_slots hx (fun k hk => hres' k (hm1 k hk)) g hg z hz
    · simp only [zipTail, List.mem_cons, List.not_mem_nil, or_false] at hg
      rcases hg with rfl | rfl <;> simp [ZipHeader.args] at hz
  obtain ⟨attrs, e, hA, hB⟩ := initAttrs_gen (acc := []) hco hres' (by decide)
  refine ⟨attrs, e, ?_⟩
  have hA' : ∀ g ∈ Reg.Zip.ZipPacket.fields, Dict.get? attrs g.name = attrVal g h.args := by
    intro g hg
    cases hr : isRes g.ty with
    | false =>
      rw [hA g hg hr]
      cases hn : h.args g.name <;> simp [attrVal, hn]
    | true =>
      rw [hB _ (Or.inr (hres' g hg hr))]
      simp [attrVal, hres' g hg hr]
  intro c
  obtain ⟨w1, e1, ok1, b1, s1⟩ := addBytes_uint (w := Writer.new) (v := 0x23) (n := 1) rfl (by omega) (by omega)
  obtain ⟨w2, e2, ok2, b2, s2⟩ := addBytes_uint (w := w1) (v := 0x02) (n := 1) s1 (by omega) (by omega)
  obtain ⟨w3, e3, ok3, b3, s3⟩ := composeFields_ok (cmd := some (compose c)) zip_slots (by decide) hx
    (fun g hg => hres' g (hm1 g hg)) (fun g hg => hA' g (hm1 g hg)) ok2 (by rw [s2]; decide)
  have s30 : w3.start = 0 := by rw [s3, s2]; decide
  have hw3 : w3.data = h.bytes := by
    apply bitsOf_inj
    rw [← Writer.bits_aligned s30, b3, b2, b1, Writer.bits_new]
    simp only [ZipHeader.bytes, List.drop_succ_cons, List.drop_zero]
    simp [bitsOf]
  have hext : Dict.get? attrs "headerExtension" = none := by
    rw [hB _ (Or.inr (by simp [ZipHeader.args]))]; rfl
  have hcc : (Reg.Zip.ZipPacket.cc : Int) = 0x23 := rfl
  have hcmd : (Reg.Zip.ZipPacket.cmd : Int) = 0x02 := rfl
  simp only [compose, composeWith, zip_find, composeDef, hcc, hcmd]
  rw [e1]
  simp only [bind, Except.bind]
  rw [e2]
  simp only [zip_fields]
  rw [show composeWith registry c = compose c from rfl, composeFields_append e3]
  generalize compose c = r
  cases r with
  | error e => simp [zipTail, composeFields, composeField, hext, defaultVal, serVal, bind, Except.bind, pure, Except.pure]
  | ok cb =>
    simp only [zipTail, composeFields, composeField, hext, defaultVal, serVal, bind, Except.bind, pure, Except.pure]
    simp [Writer.extend, hw3]

/-- Composing a constructed Z/IP packet gives the header bytes and then the command. -/
theorem zip_compose (h : ZipHeader) (hf : h.Fits) :
    ∃ attrs, initAttrs (argKw h.args) Reg.Zip.ZipPacket.fields [] = .ok attrs ∧
      ∀ c cb, compose c = .ok cb → compose (.wrap 0x2302 attrs c) = .ok (h.bytes ++ cb) := by
  obtain ⟨attrs, e, hc⟩ := zip_compose_bind h hf
  exact ⟨attrs, e, fun c cb h => by rw [hc, h]; rfl⟩

theorem flags0_bits (h : ZipHeader) :
    h.flags0.toNat / 128 % 2 = h.ackRequest.toNat ∧ h.flags0.toNat / 64 % 2 = h.ackResponse.toNat ∧
    h.flags0.toNat / 32 % 2 = h.nackResponse.toNat ∧ h.flags0.toNat / 16 % 2 = h.nackWaiting.toNat ∧
    h.flags0.toNat / 8 % 2 = h.nackQueueFull.toNat ∧ h.flags0.toNat / 4 % 2 = h.nackOptionError.toNat := by
  have : ∀ a b c d e f : Bool, let x := (UInt8.ofNat (ofBits [a, b, c, d, e, f, false, false])).toNat
      x / 128 % 2 = a.toNat ∧ x / 64 % 2 = b.toNat ∧ x / 32 % 2 = c.toNat ∧ x / 16 % 2 = d.toNat ∧ x / 8 % 2 = e.toNat ∧
      x / 4 % 2 = f.toNat := by decide +kernel
  exact this _ _ _ _ _ _

theorem flags1_bits (h : ZipHeader) :
    h.flags1.toNat / 128 % 2 = h.ext.toNat ∧ h.flags1.toNat / 64 % 2 = h.cmd.toNat ∧
    h.flags1.toNat / 32 % 2 = h.more.toNat ∧ h.flags1.toNat / 16 % 2 = h.secure.toNat := by
  have : ∀ a b c d : Bool, let x := (UInt8.ofNat (ofBits [a, b, c, d, false, false, false, false])).toNat
      x / 128 % 2 = a.toNat ∧ x / 64 % 2 = b.toNat ∧ x / 32 % 2 = c.toNat ∧ x / 16 % 2 = d.toNat := by decide +kernel
  exact this _ _ _ _

theorem flags1_ext (h : ZipHeader) : h.flags1.toNat < 128 ↔ h.ext = false := by
  have h1 := (flags1_bits h).1
  have h2 := UInt8.toNat_lt h.flags1
  cases hx : h.ext <;> simp [hx] at h1 ⊢ <;> omega

theorem get?_append (l m : Dict String Val) (n : String) :
    Dict.get? (l ++ m) n = match Dict.get? l n with | some v => some v | none => Dict.get? m n := by
  induction l with
  | nil => rfl
  | cons p l ih =>
    simp only [List.cons_append, Dict.get?]
    split
    · rfl
    · exact ih

theorem zipAll_get (f0 f1 seq s d : UInt8) (o : Option (Dict Nat OptVal)) (n : String) (v : Val)
    (h : Dict.get? (zipAttrs f0 f1 seq s d) n = some v) : Dict.get? (zipAll f0 f1 seq s d o) n = some v := by
  cases o with
  | none => exact h
  | some o => simp only [zipAll]; rw [get?_append, h]

end Model

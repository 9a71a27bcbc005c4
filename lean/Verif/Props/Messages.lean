import Verif.Lemmas.Roundtrip
import Verif.Props.Stream
/-!
# Property theorems C05 - C08: messages on the wire
-/
namespace Props
open Spec Model

/-! ## C05 -/

/-- Values an integer attribute class can represent. -/
def Representable : FT → Int → Prop
  | .uint n, v => 0 ≤ v ∧ v < 2 ^ (8 * n)
  | .sint n, v => -(2 ^ (8 * n - 1)) ≤ v ∧ v < 2 ^ (8 * n - 1)
  | .ubits n, v => 0 ≤ v ∧ v < 2 ^ n
  | .bits n, v => 0 ≤ v ∧ v < 2 ^ n
  | .flag, v => v = 0 ∨ v = 1
  | .reserved n, v => 0 ≤ v ∧ v < 2 ^ n
  | _, _ => False

/-- Number of bits of an integer attribute class. -/
def width : FT → Nat
  | .uint n => 8 * n
  | .sint n => 8 * n
  | .ubits n => n
  | .bits n => n
  | .flag => 1
  | .reserved n => n
  | _ => 0

/-- Written as whole bytes. -/
def isWhole : FT → Bool
  | .uint _ => true
  | .sint _ => true
  | _ => false

theorem writer_bits_length {w : Writer} (h : w.Ok) : w.bits.length % 8 = w.start := by
  by_cases hs : w.start = 0
  · rw [Writer.bits_aligned hs]; simp [hs]
  · obtain ⟨pre, b, hd, _⟩ := h.2 hs
    have := h.1
    simp only [Writer.bits, List.length_take, bitsOf_length, hd, List.length_append, List.length_singleton, if_neg hs]
    omega

theorem fromBytesBEs_toBytes {v : Int} {n : Nat} {b : Bytes} (hn : 0 < n)
    (hv : -(2 ^ (8 * n - 1)) ≤ v ∧ v < 2 ^ (8 * n - 1)) (h : toBytesBE v n true = .ok b) : fromBytesBEs b = v := by
  have hb : b = natToBE n (v % 2 ^ (8 * n)).toNat := by
    simp only [toBytesBE, if_true] at h
    rw [if_neg (by omega), if_pos hv] at h
    cases h; rfl
  have hl : b.length = n := by simp [hb]
  have hp : (2 : Int) ^ (8 * n) = 2 * 2 ^ (8 * n - 1) := by
    have h := Int.pow_succ (2 : Int) (8 * n - 1); rw [show (8 * n - 1).succ = 8 * n by omega] at h; omega
  have hpn : (2 : Nat) ^ (8 * n) = 2 * 2 ^ (8 * n - 1) := by
    have h := Nat.pow_succ (n := 2) (m := 8 * n - 1); rw [show (8 * n - 1).succ = 8 * n by omega] at h; omega
  have hcast : ((2 ^ (8 * n - 1) : Nat) : Int) = 2 ^ (8 * n - 1) := by simp
  have hu : fromBytesBE b = (v % 2 ^ (8 * n)).toNat := by
    rw [fromBytesBE_eq, hb, beNat_natToBE]
    apply Nat.mod_eq_of_lt
    rw [show (256 : Nat) ^ n = 2 ^ (8 * n) by rw [Nat.pow_mul]]
    have := Int.emod_lt_of_pos v (show (0 : Int) < 2 ^ (8 * n) by rw [hp]; omega)
    omega
  have hne : b.isEmpty = false := by
    cases b with
    | nil => simp at hl; omega
    | cons => rfl
  unfold fromBytesBEs
  simp only [hu, hl, hne, Bool.false_eq_true, if_false]
  by_cases h0 : 0 ≤ v
  · rw [Int.emod_eq_of_lt h0 (by omega), if_pos (by omega)]; omega
  · have : v % 2 ^ (8 * n) = v + 2 ^ (8 * n) := by
      rw [← Int.add_emod_right, Int.emod_eq_of_lt (by omega) (by omega)]
    rw [this, if_neg (by omega)]; omega

/-- **C05.** An integer written at the end of any stream (whole-byte types at a byte boundary, sub-byte
types inside a byte) can be written, and reading at that position, whatever bytes follow, gives the
same integer back and consumes exactly the bits written. -/
theorem C05_int_roundtrip (t : FT) (v : Int) (w : Writer) (hv : Representable t v) (hw : w.Ok)
    (hpos : 0 < width t) (hbyte : isWhole t = true → w.start = 0) (hin : isWhole t = false → w.start + width t ≤ 8) :
    ∃ w', serVal (.num t v) w = .ok w' ∧ w'.bits.length = w.bits.length + width t ∧
      ∀ tl : Bytes, deserNum t ⟨w'.data ++ tl, w.bits.length⟩ = .ok (v, ⟨w'.data ++ tl, w.bits.length + width t⟩) := by
  have sub : ∀ n, 0 < n → w.start + n ≤ 8 → 0 ≤ v ∧ v < 2 ^ n →
      ∃ w', w.addBits v n = .ok w' ∧ w'.bits.length = w.bits.length + n ∧
      ∀ tl : Bytes, (Reader.mk (w'.data ++ tl) w.bits.length).bits n = .ok (v.toNat, ⟨w'.data ++ tl, w.bits.length + n⟩) := by
    intro n hn h8 hr
    have hlt := toNat_lt_pow hr.1 hr.2
    obtain ⟨w', e, ok, hb, _⟩ := Writer.addBits_ok (v := v.toNat) hw hn h8 hlt
    rw [Int.toNat_of_nonneg hr.1] at e
    refine ⟨w', e, by simp [hb], ?_⟩
    intro tl
    obtain ⟨p, _, hd⟩ := Writer.data_bits ok
    have hrest : (Reader.mk (w'.data ++ tl) w.bits.length).rest = toBits n v.toNat ++ (List.replicate p false ++ bitsOf tl) := by
      simp [Reader.rest, hd, hb]
    have := Reader.bits_rest hn (by simp only [writer_bits_length hw]; exact h8) hrest (by simp)
    rw [this.1, ofBits_toBits_of_lt hlt]
    rfl
  have whole : ∀ n s b, toBytesBE v n s = .ok b → w.start = 0 →
      ∃ w', w.addBytes v n s = .ok w' ∧ w'.bits.length = w.bits.length + 8 * n ∧
      ∀ tl : Bytes, (Reader.mk (w'.data ++ tl) w.bits.length).value n = .ok (b, ⟨w'.data ++ tl, w.bits.length + 8 * n⟩) := by
    intro n s b hb hs
    obtain ⟨w', e, ok, hb', hs'⟩ := Writer.addBytes_ok hs hb
    obtain ⟨hl, hbb⟩ := toBytesBE_bits hb
    refine ⟨w', e, by simp [hb', toBitsZ], ?_⟩
    intro tl
    have hrest : (Reader.mk (w'.data ++ tl) w.bits.length).rest = bitsOf b ++ bitsOf tl := by
      simp [Reader.rest, ← Writer.bits_aligned hs', hb', hbb]
    have hle : w.bits.length ≤ 8 * (w'.data ++ tl).length := by
      have := congrArg List.length hb'
      rw [Writer.bits_aligned hs'] at this
      simp at this ⊢; omega
    have := Reader.value_rest (n := n) (by simp only [writer_bits_length hw]; exact hs) hrest hl hle
    rw [this.1]
    rfl
  cases t <;> simp only [Representable] at hv <;> simp only [width] at hpos hin ⊢
  case uint n =>
    obtain ⟨b, hb⟩ := toBytesBE_ok_of_range (v := v) (s := n) (g := false) (by simpa using hv)
    obtain ⟨w', e, hl, hr⟩ := whole n false b hb (hbyte rfl)
    refine ⟨w', e, hl, fun tl => ?_⟩
    simp only [deserNum, hr tl, bind, Except.bind, pure, Except.pure]
    have : b = natToBE n v.toNat := by
      simp only [toBytesBE, Bool.false_eq_true, if_false] at hb
      rw [if_pos hv] at hb; cases hb; rfl
    rw [this, fromBytesBE_eq, beNat_natToBE, Nat.mod_eq_of_lt, Int.toNat_of_nonneg hv.1]
    rw [show (256 : Nat) ^ n = 2 ^ (8 * n) by rw [Nat.pow_mul]]
    exact toNat_lt_pow hv.1 hv.2
  case sint n =>
    have hn : 0 < n := by omega
    obtain ⟨b, hb⟩ := toBytesBE_ok_of_range (v := v) (s := n) (g := true) (by simp; exact ⟨hn, hv⟩)
    obtain ⟨w', e, hl, hr⟩ := whole n true b hb (hbyte rfl)
    refine ⟨w', e, hl, fun tl => ?_⟩
    simp only [deserNum, hr tl, bind, Except.bind, pure, Except.pure]
    rw [fromBytesBEs_toBytes hn hv hb]
  case flag =>
    obtain ⟨w', e, hl, hr⟩ := sub 1 (by omega) (hin rfl) (by omega)
    refine ⟨w', e, hl, fun tl => ?_⟩
    simp only [deserNum, hr tl, bind, Except.bind, pure, Except.pure]
    rw [Int.toNat_of_nonneg (by omega)]
  all_goals
    rename_i n
    obtain ⟨w', e, hl, hr⟩ := sub n hpos (hin rfl) hv
    refine ⟨w', e, hl, fun tl => ?_⟩
    simp only [deserNum, hr tl, bind, Except.bind, pure, Except.pure]
    rw [Int.toNat_of_nonneg hv.1]

example : Representable (.sint 3) (-8388608) ∧ Representable (.uint 4) 0xFFFFFFFF ∧ Representable (.ubits 5) 31 := by
  simp [Representable]

/-! ## C07 -/

/-- The messages that have an attribute without an encoder, or that contain another message. Their
layouts are treated separately (C13, C23, C24) or they cannot be composed at all (C10). -/
def specialMessages : List String :=
  ["AssociationGrpInfo.GroupCommandListReport", "AssociationGrpInfo.GroupInfoReport", "AssociationGrpInfo.GroupNameReport",
   "Configuration.Report", "Configuration.Set", "Meter.Report", "NetworkManagementInclusion.NodeAddStatus",
   "NetworkManagementProxy.FailedNodeListReport", "NetworkManagementProxy.NodeListReport",
   "NodeProvisioning.ListIterationReport", "SensorMultilevel.Report", "SensorMultilevel.SupportedSensorReport",
   "Supervision.Get", "Zip.ZipPacket"]

/-- **C07.** There is a layout for every registered message apart from the 14 special ones. -/
theorem C07_layouts_cover : ∀ d ∈ registry, d.name ∉ specialMessages → ∃ L ∈ layouts, L.title = d.name := by
  decide +kernel

/-- **C07.** For every layout there is a registered message class such that: for all arguments that fit
the layout, the class can be constructed from them, the message can be composed, and the composed bytes
are, bit by bit, the command class, the command and the slots of the layout. -/
theorem C07_layout : ∀ L ∈ layouts, ∃ d ∈ registry, d.name = L.title ∧
    ∀ (a : Args) (bits : List Bool), (∀ n ∈ reservedNames, a n = none) → L.wire a = some bits →
      ∃ m b, construct d (argKw a) = .ok m ∧ compose m = .ok b ∧ bitsOf b = bits := by
  intro L hL
  obtain ⟨d, hd, hm⟩ := layouts_match L hL
  simp only [layoutMatches, Bool.and_eq_true, beq_iff_eq, Bool.or_eq_true, List.all_eq_true, List.contains_iff_mem] at hm
  obtain ⟨⟨⟨⟨⟨⟨h1, h2⟩, h3⟩, h4⟩, h5⟩, -⟩, h7⟩ := hm
  refine ⟨d, hd, h1, ?_⟩
  intro a bits hres hw
  simp only [Layout.wire] at hw
  split at hw
  · rename_i x hx
    cases hw
    obtain ⟨attrs, b, e1, e2, e3⟩ := construct_compose (cmd := none) h5 h4 hx (fun n hn => hres n (h7 n hn))
    refine ⟨.known d.hid attrs, b, by simp [construct, e1, bind, Except.bind, pure, Except.pure], ?_, by rw [e3, h2, h3]⟩
    simp [compose, composeWith, find_hid d hd, e2]
  · cases hw

/-- Arguments for `Configuration.BulkReport`, as an example of a layout with sub-byte slots and a tail. -/
def exampleArgs : Args := fun n =>
  if n = "parameterOffset" then some (.int 0x1234)
  else if n = "numberOfParameters" then some (.int 2)
  else if n = "reportsToFollow" then some (.int 0)
  else if n = "default" then some (.int 1)
  else if n = "handshake" then some (.int 0)
  else if n = "size" then some (.int 5)
  else if n = "parameter" then some (.bytes [0xAA, 0x55])
  else none

example : ∃ L ∈ layouts, L.title = "Configuration.BulkReport" ∧
    L.wire exampleArgs = some (bitsOf [0x70, 0x09, 0x12, 0x34, 0x02, 0x00, 0x85, 0xAA, 0x55]) ∧
    (∀ n ∈ reservedNames, exampleArgs n = none) := by
  decide +kernel

/-! ## C06 -/

/-- **C06.** For every layout there is a registered message class such that: for all arguments that fit
the layout and are unambiguous on the wire, the message constructed from them can be composed, decoding
the bytes gives a message of the same type, and every non-reserved attribute reads back the value that was
set. -/
theorem C06_roundtrip : ∀ L ∈ layouts, ∃ d ∈ registry, d.name = L.title ∧
    ∀ (a : Args) (bits : List Bool), (∀ n ∈ reservedNames, a n = none) → L.wire a = some bits →
      (∀ s ∈ L.slots, s.Unambiguous a) →
      ∃ m b m', construct d (argKw a) = .ok m ∧ compose m = .ok b ∧ decode b = .ok m' ∧
        m'.hid = L.cc * 256 + L.cmd ∧
        ∀ s ∈ L.slots, ∀ name x, s.readBack a = some (name, x) → (getAttr registry m' name).bind valArg = some x := by
  intro L hL
  obtain ⟨d, hd, hm⟩ := layouts_match L hL
  simp only [layoutMatches, Bool.and_eq_true, beq_iff_eq, Bool.or_eq_true, List.all_eq_true, List.contains_iff_mem] at hm
  obtain ⟨⟨⟨⟨⟨⟨h1, h2⟩, h3⟩, h4⟩, h5⟩, h6⟩, h7⟩ := hm
  refine ⟨d, hd, h1, ?_⟩
  intro a bits hres hw hu
  simp only [Layout.wire] at hw
  split at hw
  · rename_i x hx
    cases hw
    obtain ⟨attrs, b, e1, e2, e3⟩ := construct_compose (cmd := none) h5 h4 hx (fun n hn => hres n (h7 n hn))
    have hhid : d.hid = L.cc * 256 + L.cmd := by
      have := (registry_bytes d hd).2
      simp only [MsgDef.hid, ← h2, ← h3, Nat.mod_eq_of_lt this]
    have hdec : ∃ m, decode b = .ok m ∧ m.hid = d.hid ∧
        ∀ s ∈ L.slots, ∀ n x, s.readBack a = some (n, x) → (getAttr registry m n).bind valArg = some x := by
      rcases h6 with h6 | h6
      · exact decode_layout hd h5 h6 h4 hx hu e3
      · have := nodeFailing_unique d hd h6
        subst this
        exact decode_nodeFailing h4 hx e3
    obtain ⟨m', hm1, hm2, hm3⟩ := hdec
    refine ⟨.known d.hid attrs, b, m', by simp [construct, e1, bind, Except.bind, pure, Except.pure], ?_, hm1, by rw [hm2, hhid], hm3⟩
    simp [compose, composeWith, find_hid d hd, e2]
  · cases hw

/-- Unambiguous association targets with end points: the hypothesis on a `Multi Channel Association Set`. -/
example : (Slot.nodes "nodes").Unambiguous (fun _ => some (.nodes [(5, none), (6, some 0), (7, none)])) ∧
    (Slot.nodes "nodes").readBack (fun _ => some (.nodes [(5, none), (6, some 0), (7, none)])) =
      some ("nodes", .nodes [(5, none), (7, none), (6, some 0)]) := by
  constructor
  · intro l hl; cases hl; decide
  · rfl

end Props

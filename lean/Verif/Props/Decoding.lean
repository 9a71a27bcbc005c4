import Verif.Lemmas.Shift
import Verif.Lemmas.Recompose
import Verif.Props.Messages
/-!
# Property theorems C08 - C12: decoding and composing messages
-/
namespace Props
open Spec Model

/-! ## C08 -/

/-- **C08.** No two registered message types share a (command class, command) pair, and both are bytes. -/
theorem C08_unique : (registry.map fun d => (d.cc, d.cmd)).Nodup ∧ ∀ d ∈ registry, d.cc < 256 ∧ d.cmd < 256 := by
  constructor
  · decide +kernel
  · decide +kernel

/-- **C08.** Fewer than two bytes decode to the unknown message 0. -/
theorem C08_short (pkt : Bytes) (h : pkt.length < 2) : decode pkt = .ok (.unknown 0) := by
  have : (Reader.new pkt).bytesLeft < 2 := by simp [Reader.bytesLeft, Reader.new]; omega
  simp only [decode, decodeN, deserMsg, if_pos this, bind, Except.bind, pure, Except.pure]

/-- **C08.** A pair that is not registered decodes to an unknown message that reports this command class
and command. -/
theorem C08_unknown (cc cmd : UInt8) (rest : Bytes) (h : ∀ d ∈ registry, ¬ (d.cc = cc.toNat ∧ d.cmd = cmd.toNat)) :
    ∃ m, decode (cc :: cmd :: rest) = .ok m ∧ m = .unknown (cc.toNat * 256 + cmd.toNat) ∧
      m.hid = cc.toNat * 256 + cmd.toNat ∧ m.cmdClass = cc.toNat := by
  have hf : registry.find? (fun d => d.hid = cc.toNat * 256 + cmd.toNat) = none := by
    rw [List.find?_eq_none]
    intro d hd he
    apply h d hd
    have hb := C08_unique.2 d hd
    have := UInt8.toNat_lt cmd
    have he' : d.cc * 256 + d.cmd % 256 = cc.toNat * 256 + cmd.toNat := by
      simpa only [MsgDef.hid] using of_decide_eq_true he
    have h1 : d.cc = cc.toNat := by omega
    have h2 : d.cmd = cmd.toNat := by omega
    exact ⟨h1, h2⟩
  refine ⟨.unknown (cc.toNat * 256 + cmd.toNat), ?_, rfl, rfl, ?_⟩
  · simp only [decode, decodeN]
    rw [deserMsg_cons]
    simp [hf, bind, Except.bind, pure, Except.pure]
  · have h1 := UInt8.toNat_lt cc
    have h2 := UInt8.toNat_lt cmd
    simp only [Msg.cmdClass, Msg.hid]
    rw [show (0xFF : Nat) = 2 ^ 8 - 1 from rfl, Nat.and_two_pow_sub_one_eq_mod, Nat.shiftRight_eq_div_pow]
    omega

/-- **C08.** If decoding a registered pair succeeds, the message is of exactly that type. -/
theorem C08_own_type (cc cmd : UInt8) (rest : Bytes) (d : MsgDef) (hd : d ∈ registry) (h1 : d.cc = cc.toNat)
    (h2 : d.cmd = cmd.toNat) (m : Msg) (h : decode (cc :: cmd :: rest) = .ok m) :
    (∃ attrs, m = .known d.hid attrs) ∨ (∃ attrs c, m = .wrap d.hid attrs c) := by
  have hh : d.hid = cc.toNat * 256 + cmd.toNat := by
    have := UInt8.toNat_lt cmd
    simp only [MsgDef.hid, h1, h2]; omega
  have hf := find_hid d hd
  rw [hh] at hf
  simp only [decode, decodeN] at h
  obtain ⟨⟨m', r⟩, h3, h4⟩ := bind_ok h
  cases h4
  rw [deserMsg_cons, hf] at h3
  simp only at h3
  obtain ⟨⟨attrs, c, r3⟩, h5, h6⟩ := bind_ok h3
  rw [hh]
  cases c with
  | none => cases h6; exact Or.inl ⟨attrs, rfl⟩
  | some c => cases h6; exact Or.inr ⟨attrs, c, rfl⟩

example : decode [0x20, 0x01, 0xFF] = .ok (.known 0x2001 [("value", .num (.uint 1) 255)]) := by decide +kernel
example : decode [0x20, 0xEE, 0xFF] = .ok (.unknown 0x20EE) := by decide +kernel

/-! ## C09 -/

/-- **C09.** Decoding any packet ends: neither a parser loop nor the nesting of messages exceeds its
budget, and a nesting budget of half the packet length suffices: with any larger budget the result is the
same. (Loop budgets are the number of remaining bytes, see `metaLoop`, `maintLoop`, `optionLoop`,
`sensorLoop`.) -/
theorem C09_terminates (pkt : Bytes) :
    decode pkt ≠ .error .fuel ∧ decode pkt ≠ .error .recursion ∧
    ∀ depth, pkt.length / 2 + 1 ≤ depth → decodeN registry depth pkt = decode pkt := by
  have hl : left (Reader.new pkt) = pkt.length := by simp [left, Reader.new]
  have hc : Clean (decode pkt) :=
    Clean.bind (clean_deserMsg _ _ (by rw [hl]; omega)) (fun _ _ => Clean.pure _)
  refine ⟨hc.1, hc.2, ?_⟩
  intro depth hd
  simp only [decode, decodeN]
  rw [deserMsg_depth depth (pkt.length + 1) _ (by rw [hl]; omega) (by rw [hl]; omega)]

/-- The bound on nesting is met by real packets: two Z/IP packets inside each other. -/
example : (decode [0x23, 0x02, 0, 0x40, 1, 0, 0, 0x23, 0x02, 0, 0, 2, 0, 0]).isOk = true ∧
    decodeN registry 1 [0x23, 0x02, 0, 0x40, 1, 0, 0, 0x23, 0x02, 0, 0, 2, 0, 0] = .error .recursion := by
  decide +kernel

/-! ## C10 -/

/-- Attribute classes that have a default value. -/
def HasDefault : FT → Prop
  | .reserved _ => True
  | .bytes => True
  | .nodes => True
  | .hdr => True
  | _ => False

/-- Attribute values with an encoder. -/
def HasEncoder : Val → Prop
  | .num .pyint _ => False
  | .num (.uint _) _ => True
  | .num (.sint _) _ => True
  | .num (.ubits _) _ => True
  | .num (.bits _) _ => True
  | .num .flag _ => True
  | .num (.reserved _) _ => True
  | .bytes _ => True
  | .dsk _ => True
  | .ipv6 _ => True
  | .nodes _ => True
  | .hdr _ => True
  | _ => False

/-- The attributes set in `m`, including `command`. -/
def isSet (m : Msg) (f : Field) : Prop :=
  if f.ty = .message then m.command ≠ none else m.attr f.name ≠ none

theorem composeFields_mem {attrs : Dict String Val} {cmd : Option (Py Bytes)} {fs : List Field} {w w' : Writer}
    (h : composeFields attrs cmd fs w = .ok w') (f : Field) (hf : f ∈ fs) :
    ∃ w1 w2, composeField attrs cmd f w1 = .ok w2 := by
  induction fs generalizing w with
  | nil => cases hf
  | cons g fs ih =>
    obtain ⟨w1, h1, h2⟩ := bind_ok h
    rcases List.mem_cons.mp hf with rfl | hf
    · exact ⟨w, w1, h1⟩
    · exact ih h2 hf

theorem composeDef_fields {d : MsgDef} {attrs : Dict String Val} {cmd : Option (Py Bytes)} {b : Bytes}
    (h : composeDef d attrs cmd = .ok b) (f : Field) (hf : f ∈ d.fields) :
    ∃ w1 w2, composeField attrs cmd f w1 = .ok w2 := by
  obtain ⟨w1, _, h⟩ := bind_ok h
  obtain ⟨w2, _, h⟩ := bind_ok h
  obtain ⟨w3, h3, _⟩ := bind_ok h
  exact composeFields_mem h3 f hf

theorem composeField_sound {attrs : Dict String Val} {cmd : Option (Py Bytes)} {f : Field} {w w' : Writer}
    (h : composeField attrs cmd f w = .ok w') :
    (f.ty = .message → cmd ≠ none) ∧
    (f.ty ≠ .message → Dict.get? attrs f.name ≠ none ∨ HasDefault f.ty) ∧
    (f.ty ≠ .message → f.compose = none → ∀ v, Dict.get? attrs f.name = some v → HasEncoder v) := by
  unfold composeField at h
  split at h
  · rename_i hm
    refine ⟨fun _ hc => ?_, fun h' => absurd hm h', fun h' => absurd hm h'⟩
    rw [hc] at h; cases h
  · rename_i hm
    refine ⟨fun h' => absurd h' hm, fun _ => ?_, fun _ hc v hv => ?_⟩
    · cases hg : Dict.get? attrs f.name with
      | some v => left; simp
      | none =>
        right
        rw [hg] at h
        simp only at h
        revert h
        cases f.ty <;> simp [defaultVal, HasDefault]
    · rw [hv, hc] at h
      simp only at h
      cases v <;> simp [serVal] at h <;> try trivial
      rename_i t x
      cases t <;> simp at h <;> trivial

/-- **C10.** `compose()` never emits bytes for a message with a missing required attribute, nor for one with
an attribute value that has no encoder. -/
theorem C10_no_guess (m : Msg) (b : Bytes) (h : compose m = .ok b) (d : MsgDef)
    (hm : (∃ attrs, m = .known d.hid attrs) ∨ (∃ attrs c, m = .wrap d.hid attrs c)) (hd : d ∈ registry) (f : Field)
    (hf : f ∈ d.fields) :
    (isSet m f ∨ HasDefault f.ty) ∧
    (f.ty ≠ .message → f.compose = none → ∀ v, m.attr f.name = some v → HasEncoder v) := by
  have hfind := find_hid d hd
  rcases hm with ⟨attrs, rfl⟩ | ⟨attrs, c, rfl⟩
  · simp only [compose, composeWith, hfind] at h
    obtain ⟨w1, w2, h1⟩ := composeDef_fields h f hf
    obtain ⟨p1, p2, p3⟩ := composeField_sound h1
    refine ⟨?_, p3⟩
    unfold isSet
    split
    · rename_i hm; exact absurd rfl (p1 hm)
    · rename_i hm; exact p2 hm
  · simp only [compose, composeWith, hfind] at h
    obtain ⟨w1, w2, h1⟩ := composeDef_fields h f hf
    obtain ⟨p1, p2, p3⟩ := composeField_sound h1
    refine ⟨?_, p3⟩
    unfold isSet
    split
    · left; simp [Msg.command]
    · rename_i hm; exact p2 hm

/-- **C10.** The exception is AttributeError for the first attribute that is missing, and ValueError for the
first one without encoder, when everything before it could be written. -/
theorem C10_errors (d : MsgDef) (hd : d ∈ registry) (attrs : Dict String Val) (pre post : List Field) (f : Field)
    (hfs : d.fields = pre ++ f :: post) (w : Writer)
    (hpre : composeFields attrs none pre ⟨[UInt8.ofNat d.cc, UInt8.ofNat d.cmd], 0⟩ = .ok w) (hty : f.ty ≠ .message) :
    (Dict.get? attrs f.name = none → ¬ HasDefault f.ty → compose (.known d.hid attrs) = .error .attribute) ∧
    (∀ v, f.compose = none → Dict.get? attrs f.name = some v → ¬ HasEncoder v → compose (.known d.hid attrs) = .error .value) := by
  have hfind := find_hid d hd
  obtain ⟨hcc, hcmd⟩ := registry_bytes d hd
  have hw0 : (Writer.new.addBytes d.cc 1 false >>= fun w => w.addBytes d.cmd 1 false) =
      (.ok ⟨[UInt8.ofNat d.cc, UInt8.ofNat d.cmd], 0⟩ : Py Writer) := by
    have e1 : toBytesBE (d.cc : Int) 1 false = .ok [UInt8.ofNat d.cc] := by
      simp only [toBytesBE, Bool.false_eq_true, if_false]
      rw [if_pos (by omega)]; simp [natToBE, Nat.mod_eq_of_lt hcc]
    have e2 : toBytesBE (d.cmd : Int) 1 false = .ok [UInt8.ofNat d.cmd] := by
      simp only [toBytesBE, Bool.false_eq_true, if_false]
      rw [if_pos (by omega)]; simp [natToBE, Nat.mod_eq_of_lt hcmd]
    simp [Writer.addBytes, Writer.new, e1, e2, bind, Except.bind]
  have happ : ∀ (pre : List Field) (w0 w : Writer), composeFields attrs none pre w0 = .ok w →
      composeFields attrs none (pre ++ f :: post) w0 = (do
        let w ← composeField attrs none f w
        composeFields attrs none post w) := by
    intro pre
    induction pre with
    | nil => intro w0 w h; cases h; rfl
    | cons g gs ih =>
      intro w0 w h
      obtain ⟨w1, h1, h2⟩ := bind_ok h
      simp only [List.cons_append, composeFields, h1, bind, Except.bind]
      exact ih w1 w h2
  have hgen : ∀ e, composeField attrs none f w = .error e → compose (.known d.hid attrs) = .error e := by
    intro e he
    simp only [compose, composeWith, hfind, composeDef]
    obtain ⟨w1, h1, h2⟩ := bind_ok hw0
    rw [h1]
    simp only [bind, Except.bind]
    rw [h2, hfs]
    simp only
    rw [happ pre _ w hpre, he]
    simp only [bind, Except.bind]
  constructor
  · intro hn hdef
    apply hgen
    simp only [composeField, if_neg hty, hn]
    revert hdef
    cases f.ty <;> simp [defaultVal, HasDefault]
  · intro v hc hv henc
    apply hgen
    simp only [composeField, if_neg hty, hv, hc]
    cases v <;> simp [HasEncoder] at henc <;> simp [serVal]
    rename_i t x
    cases t <;> simp at henc <;> rfl

/-- Composing `Basic.Set` without a value, and a decoded sensor report, which has no encoder. -/
example : compose (.known 0x2001 []) = .error .attribute := by decide +kernel
example : ((decode [0x31, 0x05, 0x01, 0x22, 0x00, 0xE5]).bind compose) = .error .value := by decide +kernel

/-! ## C11 -/

/-- **C11**, the property: whatever decodes is composed back to the same bytes. -/
def C11_statement : Prop := ∀ pkt m, decode pkt = .ok m → compose m = .ok pkt

/-- **C11** is violated: the end point report `52 06 01 05 00 03 00`, a complete and well-formed frame,
does not compose back: its three reserved fields share one name, so all are written with the width of the first. -/
theorem C11_violated : ¬ C11_statement := by
  intro h
  have h1 : ∃ m, decode [0x52, 0x06, 0x01, 0x05, 0x00, 0x03, 0x00] = .ok m ∧
      compose m ≠ .ok [0x52, 0x06, 0x01, 0x05, 0x00, 0x03, 0x00] := by
    refine ⟨.known 0x5206 [("seqNo", .num (.uint 1) 1), ("nodeID", .num (.uint 1) 5), ("-", .num (.reserved 8) 0),
      ("individualEndPoints", .num (.ubits 7) 3), ("aggregatedEndPoints", .num (.ubits 7) 0)], ?_, ?_⟩ <;> decide +kernel
  obtain ⟨m, hd, hc⟩ := h1
  exact hc (h _ _ hd)

/-- Layouts with reserved slots of different width under one name. -/
def clashing : List String :=
  ["NetworkManagementProxy.MultiChannelEndPointReport", "ZipND.ZipInvNodeSolicitation"]

/-- **C11**, what holds: every frame of every other layout decodes to a message that composes to exactly that frame.
Missing for the full property: the layouts in `clashing` and the special messages; frames with trailing bytes or with
non-zero reserved bits are the subject of `C11_any_packet_partial`. -/
theorem C11_recompose_partial : ∀ L ∈ layouts, L.title ∉ clashing →
    ∀ (a : Args) (pkt : Bytes), (∀ n ∈ reservedNames, a n = none) → L.wire a = some (bitsOf pkt) →
      (∀ s ∈ L.slots, s.Unambiguous a) → ∃ m, decode pkt = .ok m ∧ compose m = .ok pkt := by
  intro L hL hcl
  obtain ⟨d, hd, hm⟩ := layouts_match L hL
  simp only [layoutMatches, Bool.and_eq_true, beq_iff_eq, Bool.or_eq_true, List.all_eq_true, List.contains_iff_mem] at hm
  obtain ⟨⟨⟨⟨⟨⟨h1, h2⟩, h3⟩, h4⟩, h5⟩, h6⟩, h7⟩ := hm
  intro a pkt hres hw hu
  simp only [Layout.wire] at hw
  split at hw
  · rename_i x hx
    have hbits : bitsOf pkt = toBits 8 d.cc ++ toBits 8 d.cmd ++ x := by
      rw [h2, h3]; exact (Option.some.inj hw).symm
    have hst : ∀ d ∈ registry, d.name ∉ clashing → d.name ≠ "Zip.ZipPacket" → sameTypes d = true := by decide +kernel
    have hnz : ∀ L ∈ layouts, L.title ≠ "Zip.ZipPacket" := by decide +kernel
    rcases h6 with h6 | h6
    · exact recompose_layout hd h5 h6 (hst d hd (by rw [h1]; exact hcl) (by rw [h1]; exact hnz L hL)) h4 hx hu
        (fun n hn => hres n (h7 n hn)) hbits
    · have := nodeFailing_unique d hd h6
      subst this
      exact recompose_nodeFailing h4 hx hbits
  · cases hw

/-- Layouts with two slots stored under one name, and the one whose packet may carry an identity in front. -/
def overlapping : List String :=
  ["NetworkManagementProxy.MultiChannelEndPointReport", "NetworkManagementProxy.NodeInfoCachedReport",
   "SensorMultilevel.Get", "ZipND.ZipInvNodeSolicitation", "Mailbox.NodeFailing"]

theorem layouts_any : ∀ L ∈ layouts, L.title ∉ overlapping → ∃ d ∈ registry, d.cc = L.cc ∧ d.cmd = L.cmd ∧
    slotsOf d.fields = some L.slots ∧ staticAny d = true := by
  intro L hL hno
  obtain ⟨d, hd, hm⟩ := layouts_match L hL
  simp only [layoutMatches, Bool.and_eq_true, beq_iff_eq] at hm
  obtain ⟨⟨⟨⟨⟨⟨h1, h2⟩, h3⟩, h4⟩, _⟩, _⟩, _⟩ := hm
  have hall : ∀ d ∈ registry, (∃ L ∈ layouts, d.name = L.title) → d.name ∉ overlapping → staticAny d = true := by
    have : registry.all (fun d => !(layouts.any fun L => d.name == L.title) || overlapping.contains d.name || staticAny d) = true := by
      decide +kernel
    intro d hd hL hno
    have := List.all_eq_true.mp this d hd
    simp only [Bool.or_eq_true, Bool.not_eq_true', List.contains_iff_mem] at this
    rcases this with (h | h) | h
    · obtain ⟨L, hL, e⟩ := hL
      have := List.any_eq_false.mp h L hL
      simp [e] at this
    · exact absurd h hno
    · exact h
  exact ⟨d, hd, h2, h3, h4, hall d hd ⟨L, hL, h1⟩ (by rw [h1]; exact hno)⟩

/-- **C11**, any packet: for every layout outside `overlapping`, *every* byte string that starts with the command class
and command and is long enough for the fixed part decodes, whatever its reserved bits are, and the message composes to
the same bytes: all of them if the last slot runs to the end, else without the trailing bytes. If the last slot lists
association targets, they must be in the form of a list on the wire (a bare marker at the end would be dropped).
The layouts in `overlapping` and the special messages are the subject of `Props/Clashing.lean`. -/
theorem C11_any_packet_partial : ∀ L ∈ layouts, L.title ∉ overlapping → ∀ rest : Bytes, L.fixedBytes ≤ rest.length →
    (L.hasTargets = true → ∃ l, nodesFit l = true ∧ 0 ∉ plainTargets l ∧
      rest.drop L.fixedBytes = (nodesWire l).map UInt8.ofNat) →
    ∃ m, decode (UInt8.ofNat L.cc :: UInt8.ofNat L.cmd :: rest) = .ok m ∧
      compose m = .ok (UInt8.ofNat L.cc :: UInt8.ofNat L.cmd :: if L.isOpen then rest else rest.take L.fixedBytes) := by
  intro L hL hno rest hle htg
  obtain ⟨d, hd, h2, h3, h4, hok⟩ := layouts_any L hL hno
  obtain ⟨s1, s2, s3⟩ := slots_sizes h4
  have hw8 : Model.width d.fields % 8 = 0 := by
    simp only [staticAny, Bool.and_eq_true, decide_eq_true_eq, beq_iff_eq] at hok
    obtain ⟨⟨⟨⟨⟨hfix, hal⟩, _⟩, _⟩, _⟩, hend⟩ := hok
    have := aligned_width hfix hal (by omega); rw [hend] at this; omega
  simp only [Layout.fixedBytes, Layout.isOpen, Layout.hasTargets, s1, s2] at hle htg ⊢
  rw [← h2, ← h3]
  refine recompose_any hd hok (by omega) ?_
  intro hn
  obtain ⟨l, f1, f2, f3⟩ := htg (s3.mpr hn)
  right
  refine ⟨targetsNormal l, by rw [f3]; exact deserNodes_wire l f1 f2, ?_⟩
  obtain ⟨g1, g2⟩ := targets_normal l f1
  rw [serNodes_ok _ g1, g2, f3]

/-- **C11**, packets that stop early: a packet of one of these layouts that ends within the fixed part is refused with
EOFError or gives a message that cannot be composed: composing it raises AttributeError, it never makes up the
missing values. -/
theorem C11_truncated_partial : ∀ L ∈ layouts, L.title ∉ overlapping → ∀ rest : Bytes, rest.length < L.fixedBytes →
    decode (UInt8.ofNat L.cc :: UInt8.ofNat L.cmd :: rest) = .error .eof ∨
    ∃ m, decode (UInt8.ofNat L.cc :: UInt8.ofNat L.cmd :: rest) = .ok m ∧ compose m = .error .attribute := by
  intro L hL hno rest hlt
  obtain ⟨d, hd, h2, h3, h4, hok⟩ := layouts_any L hL hno
  obtain ⟨s1, s2, s3⟩ := slots_sizes h4
  simp only [Layout.fixedBytes, s1] at hlt
  rw [← h2, ← h3]
  exact truncated_any hd hok (by omega)

-- a keep alive with all its bits set, also the reserved ones, and a byte too many; one that stops after its command
example : ∃ L ∈ layouts, L.title = "Zip.ZipKeepAlive" ∧ L.title ∉ overlapping ∧ L.fixedBytes = 1 ∧ L.isOpen = false ∧
    (decode [0x23, 0x03, 0xFF, 0x01]).bind compose = .ok [0x23, 0x03, 0xFF] := by
  refine ⟨layouts.find? (·.title = "Zip.ZipKeepAlive") |>.get (by decide +kernel), ?_, ?_⟩ <;> decide +kernel
example : ∃ L ∈ layouts, L.title = "Zip.ZipKeepAlive" ∧ ([] : Bytes).length < L.fixedBytes ∧
    (decode [0x23, 0x03]).bind compose = .error .attribute := by
  refine ⟨layouts.find? (·.title = "Zip.ZipKeepAlive") |>.get (by decide +kernel), ?_, ?_⟩ <;> decide +kernel

end Props

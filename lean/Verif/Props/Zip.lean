import Verif.Lemmas.ZipCompose
import Verif.Props.Messages
/-!
# Property theorems C13 - C15, C77 and the nested part of C06: Z/IP packets
-/
namespace Props
open Spec Model

/-- A message object is a Z/IP packet with the given fixed part. -/
def Describes (h : ZipHeader) (m : Msg) : Prop :=
  m.hid = 0x2302 ∧ m.flag "ackRequest" = h.ackRequest ∧ m.flag "ackResponse" = h.ackResponse ∧
  m.flag "nackResponse" = h.nackResponse ∧ m.flag "nackWaiting" = h.nackWaiting ∧
  m.flag "nackQueueFull" = h.nackQueueFull ∧ m.flag "nackOptionError" = h.nackOptionError ∧
  m.flag "headerExtIncluded" = h.ext ∧ m.flag "zwCmdIncluded" = h.cmd ∧ m.flag "moreInformation" = h.more ∧
  m.flag "secureOrigin" = h.secure ∧ m.num? "seqNo" = some (h.seq : Int) ∧ m.num? "sourceEP" = some (h.src : Int) ∧
  m.num? "destEP" = some (h.dst : Int)

theorem describes_attrs (h : ZipHeader) (hf : h.Fits) (m : Msg) (hid : m.hid = 0x2302) (o : Option (Dict Nat OptVal))
    (ha : m.attrs = zipAll h.flags0 h.flags1 (UInt8.ofNat h.seq) (UInt8.ofNat h.src) (UInt8.ofNat h.dst) o) : Describes h m := by
  obtain ⟨h1, h2, h3⟩ := hf
  obtain ⟨a1, a2, a3, a4, a5, a6⟩ := flags0_bits h
  obtain ⟨b1, b2, b3, b4⟩ := flags1_bits h
  have fl : ∀ (n : String) (x : Nat) (b : Bool), x = b.toNat →
      Dict.get? (zipAttrs h.flags0 h.flags1 (UInt8.ofNat h.seq) (UInt8.ofNat h.src) (UInt8.ofNat h.dst)) n = some (.num .flag (x : Nat)) →
      m.flag n = b := by
    intro n x b hb hg
    have := zipAll_get _ _ _ _ _ o n _ hg
    rw [← ha] at this
    simp only [Msg.flag, Msg.attr, this, hb]
    cases b <;> rfl
  have nu : ∀ (n : String) (t : FT) (x y : Nat), x = y →
      Dict.get? (zipAttrs h.flags0 h.flags1 (UInt8.ofNat h.seq) (UInt8.ofNat h.src) (UInt8.ofNat h.dst)) n = some (.num t (x : Nat)) →
      m.num? n = some (y : Int) := by
    intro n t x y hb hg
    have := zipAll_get _ _ _ _ _ o n _ hg
    rw [← ha] at this
    simp only [Msg.num?, Msg.attr, this, hb]
  exact ⟨hid, fl _ _ _ a1 rfl, fl _ _ _ a2 rfl, fl _ _ _ a3 rfl, fl _ _ _ a4 rfl, fl _ _ _ a5 rfl, fl _ _ _ a6 rfl,
    fl _ _ _ b1 rfl, fl _ _ _ b2 rfl, fl _ _ _ b3 rfl, fl _ _ _ b4 rfl, nu _ _ _ _ (toNat_length h1) rfl,
    nu _ _ _ _ (by rw [toNat_length (by omega)]; omega) rfl, nu _ _ _ _ (by rw [toNat_length (by omega)]; omega) rfl⟩

/-! ## C13 -/

/-- What a response to a packet with secure flag `sec`, sequence number `q` and end points `s` and `d` must look like. -/
def responseHeader (ok waiting full err sec : Bool) (q s d : Nat) : ZipHeader :=
  { ackResponse := ok, nackResponse := !ok, nackWaiting := waiting, nackQueueFull := full, nackOptionError := err,
    secure := sec, seq := q, src := d, dst := s }

/-- **C13.** For every Z/IP packet object with the needed attributes, `response()` gives a packet that composes to
exactly the seven header bytes (same sequence number, swapped end points, the requested flags, no command), and decoding these
gives back a packet with these attributes and without a command. -/
theorem C13_response (m : Msg) (sec : Bool) (q s d : Nat) (t1 t2 t3 t4 : FT)
    (hsec : getAttr registry m "secureOrigin" = some (.num t1 (if sec then 1 else 0)))
    (hq : getAttr registry m "seqNo" = some (.num t2 q)) (hs : getAttr registry m "sourceEP" = some (.num t3 s))
    (hd : getAttr registry m "destEP" = some (.num t4 d)) (hq' : q < 256) (hs' : s < 128) (hd' : d < 128)
    (ok waiting full err : Bool) :
    ∃ p m', zipResponse m ok waiting full err = .ok p ∧
      compose p = .ok (responseHeader ok waiting full err sec q s d).bytes ∧
      decode (responseHeader ok waiting full err sec q s d).bytes = .ok m' ∧
      Describes (responseHeader ok waiting full err sec q s d) m' ∧ m'.command = none := by
  have hf : (responseHeader ok waiting full err sec q s d).Fits := ⟨hq', hd', hs'⟩
  obtain ⟨attrs, e, hc⟩ := zip_compose _ hf
  have hkw : (fun n =>
    if n = "ackRequest" then some (boolVal false)
    else if n = "ackResponse" then some (boolVal ok)
    else if n = "nackResponse" then some (boolVal (!ok))
    else if n = "nackWaiting" then some (boolVal waiting)
    else if n = "nackQueueFull" then some (boolVal full)
    else if n = "nackOptionError" then some (boolVal err)
    else if n = "headerExtIncluded" then some (boolVal false)
    else if n = "zwCmdIncluded" then some (boolVal false)
    else if n = "moreInformation" then some (boolVal false)
    else if n = "secureOrigin" then some (Val.num .pyint (if sec then 1 else 0))
    else if n = "seqNo" then some (Val.num .pyint q)
    else if n = "sourceEP" then some (Val.num .pyint d)
    else if n = "destEP" then some (Val.num .pyint s)
    else none) = argKw (responseHeader ok waiting full err sec q s d).args := by
    funext n
    simp only [argKw, ZipHeader.args, responseHeader]
    by_cases h1 : n = "ackRequest"; · subst h1; rfl
    by_cases h2 : n = "ackResponse"; · subst h2; rfl
    by_cases h3 : n = "nackResponse"; · subst h3; rfl
    by_cases h4 : n = "nackWaiting"; · subst h4; rfl
    by_cases h5 : n = "nackQueueFull"; · subst h5; rfl
    by_cases h6 : n = "nackOptionError"; · subst h6; rfl
    by_cases h7 : n = "headerExtIncluded"; · subst h7; rfl
    by_cases h8 : n = "zwCmdIncluded"; · subst h8; rfl
    by_cases h9 : n = "moreInformation"; · subst h9; rfl
    by_cases h10 : n = "secureOrigin"; · subst h10; rfl
    by_cases h11 : n = "seqNo"; · subst h11; rfl
    by_cases h12 : n = "sourceEP"; · subst h12; rfl
    by_cases h13 : n = "destEP"; · subst h13; rfl
    simp only [h1, h2, h3, h4, h5, h6, h7, h8, h9, h10, h11, h12, h13, if_false, Option.map]
  refine ⟨.wrap 0x2302 attrs .pure, _, ?_, ?_, zip_decode _ _ _ _ _ [], ?_, ?_⟩
  · simp only [zipResponse, passNum, hsec, hq, hs, hd, bind, Except.bind, constructZip, hkw, e]; rfl
  · rw [hc .pure [] rfl, List.append_nil]
  · exact describes_attrs _ hf _ rfl none rfl
  · rfl

/-- **C13.** The attributes needed by `response()` are present in every decoded packet with a complete fixed part. -/
theorem C13_decoded (f0 f1 seq s d : UInt8) (rest : Bytes) (m : Msg)
    (h : decode (0x23 :: 0x02 :: f0 :: f1 :: seq :: s :: d :: rest) = .ok m) (ok waiting full err : Bool) :
    ∃ p m', zipResponse m ok waiting full err = .ok p ∧
      let H := responseHeader ok waiting full err (f1.toNat / 16 % 2 == 1) seq.toNat (s.toNat % 128) (d.toNat % 128)
      compose p = .ok H.bytes ∧ decode H.bytes = .ok m' ∧ Describes H m' ∧ m'.command = none := by
  rw [zip_decode] at h
  obtain ⟨⟨o, cb⟩, -, h⟩ := bind_ok h
  have hm : m.attrs = zipAll f0 f1 seq s d o := by
    simp only at h
    split at h
    · cases h; rfl
    · obtain ⟨c, -, h⟩ := bind_ok h; cases h; rfl
  have g : ∀ n v, Dict.get? (zipAttrs f0 f1 seq s d) n = some v → getAttr registry m n = some v := by
    intro n v hv
    have : m.attr n = some v := by
      rw [Msg.attr, hm]
      exact zipAll_get _ _ _ _ _ _ _ _ hv
    simp only [getAttr, this]
  have hbit : ∀ x : Nat, ((x % 2 : Nat) : Int) = if (x % 2 == 1) then 1 else 0 := by
    intro x; rcases Nat.mod_two_eq_zero_or_one x with h | h <;> simp [h]
  have := C13_response m (f1.toNat / 16 % 2 == 1) seq.toNat (s.toNat % 128) (d.toNat % 128) .flag (.uint 1) (.ubits 7) (.ubits 7)
    (g _ _ (by rw [← hbit]; rfl)) (g _ _ rfl) (g _ _ rfl) (g _ _ rfl)
    (UInt8.toNat_lt _) (by omega) (by omega) ok waiting full err
  exact this

/-- The response to packet 0x2A from end point 1 to end point 2, sent over a secure link, is an ack for 0x2A from end point 2 to 1. -/
example : ∃ m, decode [0x23, 0x02, 0x80, 0x50, 0x2A, 0x01, 0x02, 0x20, 0x02] = .ok m ∧
    (zipResponse m true).bind compose = .ok [0x23, 0x02, 0x40, 0x10, 0x2A, 0x02, 0x01] ∧
    (zipResponse m false true).bind compose = .ok [0x23, 0x02, 0x30, 0x10, 0x2A, 0x02, 0x01] := by
  refine ⟨_, rfl, ?_⟩
  decide +kernel

/-! ## C14 -/

theorem zip_extension (h : ZipHeader) (hf : h.Fits) (hx : h.ext = true) (os : List (Bool × HdrOption))
    (ho : ∀ o ∈ os, o.2.WellFormed) (hl : (optionsWire os).length < 255) (cmd : Bytes) (c : Msg) (hc : decode cmd = .ok c) :
    ∃ m dict, decode (h.bytes ++ UInt8.ofNat ((optionsWire os).length + 1) :: (optionsWire os ++ cmd)) = .ok m ∧
      Describes h m ∧ m.attr "headerExtension" = some (.hdr dict) ∧ expectedDelay dict = .ok (announcedDelay os) ∧
      (cmd = [] → m.command = none) ∧ (cmd ≠ [] → m.command = some c) ∧
      (match lastReport os with
        | some l => ∃ x, Dict.get? dict 3 = some (.maint x) ∧ ∀ ty, Dict.get? x ty = (lastIME ty l).map (entryMeaning ty)
        | none => Dict.get? dict 3 = none) ∧
      (match lastEncapsulation os with
        | some p => ∃ x, Dict.get? dict 4 = some (.encap x) ∧ Dict.get? x "security2SecurityClass" = p[0]?.map (fun b => (b.toNat : Int)) ∧
            Dict.get? x "crc16" = p[1]?.map (fun b => ((b.toNat % 2 : Nat) : Int))
        | none => Dict.get? dict 4 = none) := by
  obtain ⟨dict, e1, e2, e3, e4, e5⟩ := optionLoop_ok os ((optionsWire os).length + 1) ho (by omega)
  have h1 : ¬ h.flags1.toNat < 128 := by rw [flags1_ext, hx]; simp
  have hn : (UInt8.ofNat ((optionsWire os).length + 1)).toNat = (optionsWire os).length + 1 := toNat_length (by omega)
  have hne : UInt8.ofNat ((optionsWire os).length + 1) ≠ 0 := by
    intro h0
    have := congrArg UInt8.toNat h0
    rw [hn] at this; simp at this
  have hb : zipBody h.flags1 (UInt8.ofNat ((optionsWire os).length + 1) :: (optionsWire os ++ cmd)) = .ok (some dict, cmd) := by
    simp only [zipBody, h1, hne, or_self, if_false, hn, Nat.add_sub_cancel]
    rw [if_neg (by simp), List.take_left', List.drop_left'] <;> try rfl
    simp only [e1, bind, Except.bind, e2, if_true]
  have hz := zip_decode h.flags0 h.flags1 (UInt8.ofNat h.seq) (UInt8.ofNat h.src) (UInt8.ofNat h.dst)
    (UInt8.ofNat ((optionsWire os).length + 1) :: (optionsWire os ++ cmd))
  rw [hb] at hz
  simp only [ZipHeader.bytes, List.cons_append, List.nil_append]
  simp only [bind, Except.bind, hc] at hz
  have hattr : ∀ m : Msg, m.attrs = zipAll h.flags0 h.flags1 (UInt8.ofNat h.seq) (UInt8.ofNat h.src) (UInt8.ofNat h.dst) (some dict) →
      m.attr "headerExtension" = some (.hdr dict) := by
    intro m hm
    rw [Msg.attr, hm]
    simp [zipAll, zipAttrs, Dict.get?]
  by_cases hcb : cmd = []
  · rw [if_pos hcb] at hz
    exact ⟨_, dict, hz, describes_attrs h hf _ rfl (some dict) rfl, hattr _ rfl, e3, fun _ => rfl, fun h => absurd hcb h, e4, e5⟩
  · rw [if_neg hcb] at hz
    exact ⟨_, dict, hz, describes_attrs h hf _ rfl (some dict) rfl, hattr _ rfl, e3, fun h => absurd h hcb, fun _ => rfl, e4, e5⟩

/-- **C14.** A packet with any list of well-formed known options decodes, its `headerExtension.expectedDelay` is the delay of
the last expected-delay option (0 if there is none), and its command is decoded from the bytes after the extension. -/
theorem C14_expected_delay (h : ZipHeader) (hf : h.Fits) (hx : h.ext = true) (os : List (Bool × HdrOption))
    (ho : ∀ o ∈ os, o.2.WellFormed) (hl : (optionsWire os).length < 255) (cmd : Bytes) (c : Msg) (hc : decode cmd = .ok c) :
    ∃ m dict, decode (h.bytes ++ UInt8.ofNat ((optionsWire os).length + 1) :: (optionsWire os ++ cmd)) = .ok m ∧
      Describes h m ∧ m.attr "headerExtension" = some (.hdr dict) ∧ expectedDelay dict = .ok (announcedDelay os) ∧
      (cmd = [] → m.command = none) ∧ (cmd ≠ [] → m.command = some c) := by
  obtain ⟨m, dict, h1, h2, h3, h4, h5, h6, -⟩ := zip_extension h hf hx os ho hl cmd c hc
  exact ⟨m, dict, h1, h2, h3, h4, h5, h6⟩

/-- Encapsulation info, a delay of 5 seconds, a maintenance report and a (last) delay of -1. -/
example : let os := [(false, HdrOption.encapsulation [0x80, 0x01]), (true, .delay 0 0 5),
      (false, .maintenance [(0, [1]), (1, [0, 9]), (8, [])]), (true, .delay 0xFF 0xFF 0xFF)]
    (∀ o ∈ os, o.2.WellFormed) ∧ announcedDelay os = -1 ∧
    optionsWire os = [0x04, 0x02, 0x80, 0x01, 0x81, 0x03, 0x00, 0x00, 0x05, 0x03, 0x09, 0x00, 0x01, 0x01, 0x01, 0x02, 0x00, 0x09,
      0x08, 0x00, 0x81, 0x03, 0xFF, 0xFF, 0xFF] := by
  refine ⟨?_, by decide +kernel, by decide +kernel⟩
  intro o ho
  simp only [List.mem_cons, List.not_mem_nil, or_false] at ho
  rcases ho with rfl | rfl | rfl | rfl <;> simp [HdrOption.WellFormed, HdrOption.payload, entriesWire]

/-! ## C78 -/

/-- **C78.** In a packet with any list of well-formed known options the installation and maintenance option (type 3) is, for every type of entry, the value of
the last entry of that type in the last report; it is absent if there is no report. -/
theorem C78_maintenance_report (h : ZipHeader) (hf : h.Fits) (hx : h.ext = true) (os : List (Bool × HdrOption))
    (ho : ∀ o ∈ os, o.2.WellFormed) (hl : (optionsWire os).length < 255) (cmd : Bytes) (c : Msg) (hc : decode cmd = .ok c) :
    ∃ m dict, decode (h.bytes ++ UInt8.ofNat ((optionsWire os).length + 1) :: (optionsWire os ++ cmd)) = .ok m ∧
      m.attr "headerExtension" = some (.hdr dict) ∧
      (∀ l, lastReport os = some l → ∃ x, Dict.get? dict 3 = some (.maint x) ∧ ∀ ty, Dict.get? x ty = (lastIME ty l).map (entryMeaning ty)) ∧
      (lastReport os = none → Dict.get? dict 3 = none) := by
  obtain ⟨m, dict, h1, -, h3, -, -, -, h7, -⟩ := zip_extension h hf hx os ho hl cmd c hc
  refine ⟨m, dict, h1, h3, ?_, ?_⟩
  · intro l e; rw [e] at h7; exact h7
  · intro e; rw [e] at h7; exact h7

/-- Route changed, transmission time 9, a route over nodes 7 and 8, and a second route changed entry which overrides the first. -/
example : let l : List (UInt8 × Bytes) := [(0, [1]), (1, [0, 9]), (2, [7, 8, 0, 0, 3]), (0, [0])]
    lastReport [(false, .delay 0 0 5), (false, .maintenance l)] = some l ∧ (lastIME 0 l).map (entryMeaning 0) = some (.num 0) ∧
    (lastIME 1 l).map (entryMeaning 1) = some (.num 9) ∧ lastIME 4 l = none ∧ (lastIME 2 l).map (entryMeaning 2) =
      some (.route [("repeater1", 7), ("repeater2", 8), ("repeater3", 0), ("repeater4", 0), ("speed", 3)]) := by decide +kernel

/-! ## C141 -/

/-- **C141.** In a packet with any list of well-formed known options the encapsulation option (type 4) gives, for the last such option, the security class in its
first byte and the CRC-16 flag in the lowest bit of its second byte; what the payload is too short for is left out, and the option is absent if there is none. -/
theorem C141_encapsulation (h : ZipHeader) (hf : h.Fits) (hx : h.ext = true) (os : List (Bool × HdrOption))
    (ho : ∀ o ∈ os, o.2.WellFormed) (hl : (optionsWire os).length < 255) (cmd : Bytes) (c : Msg) (hc : decode cmd = .ok c) :
    ∃ m dict, decode (h.bytes ++ UInt8.ofNat ((optionsWire os).length + 1) :: (optionsWire os ++ cmd)) = .ok m ∧
      m.attr "headerExtension" = some (.hdr dict) ∧
      (∀ p, lastEncapsulation os = some p → ∃ x, Dict.get? dict 4 = some (.encap x) ∧
        Dict.get? x "security2SecurityClass" = p[0]?.map (fun b => (b.toNat : Int)) ∧
        Dict.get? x "crc16" = p[1]?.map (fun b => ((b.toNat % 2 : Nat) : Int))) ∧
      (lastEncapsulation os = none → Dict.get? dict 4 = none) := by
  obtain ⟨m, dict, h1, -, h3, -, -, -, -, h7⟩ := zip_extension h hf hx os ho hl cmd c hc
  refine ⟨m, dict, h1, h3, ?_, ?_⟩
  · intro l e; rw [e] at h7; exact h7
  · intro e; rw [e] at h7; exact h7

/-- Security class 4 with CRC-16, after an option that says otherwise; in a packet that carries a Basic Get. -/
example : let os := [(false, HdrOption.encapsulation [0x80]), (true, .delay 0 0 5), (false, .encapsulation [0x04, 0xFF, 0x00])]
    (∀ o ∈ os, o.2.WellFormed) ∧ lastEncapsulation os = some [0x04, 0xFF, 0x00] ∧
    optionsWire os = [0x04, 0x01, 0x80, 0x81, 0x03, 0x00, 0x00, 0x05, 0x04, 0x03, 0x04, 0xFF, 0x00] ∧
    (decode ([0x23, 0x02, 0x00, 0xD0, 0x2A, 0x00, 0x00, 0x0E, 0x04, 0x01, 0x80, 0x81, 0x03, 0x00, 0x00, 0x05, 0x04, 0x03, 0x04, 0xFF, 0x00] ++ [0x20, 0x02])).toOption.bind (·.attr "headerExtension")
      = some (.hdr [(4, .encap [("security2SecurityClass", 4), ("-", 127), ("crc16", 1)]), (1, .delay 5)]) := by
  refine ⟨?_, by decide +kernel, by decide +kernel, by decide +kernel⟩
  intro o ho
  simp only [List.mem_cons, List.not_mem_nil, or_false] at ho
  rcases ho with rfl | rfl | rfl <;> simp [HdrOption.WellFormed, HdrOption.payload]

/-! ## C15 -/

theorem zip_ext_error (h : ZipHeader) (hx : h.ext = true) (len : UInt8) (hlen : len ≠ 0) (tl : Bytes)
    (hb : tl.length < len.toNat - 1 ∨ ∃ e, optionLoop ((tl.take (len.toNat - 1)).length + 1) (Reader.new (tl.take (len.toNat - 1))) [] = .error e) :
    ∃ e, decode (h.bytes ++ len :: tl) = .error e := by
  have h1 : ¬ h.flags1.toNat < 128 := by rw [flags1_ext, hx]; simp
  have hz := zip_decode h.flags0 h.flags1 (UInt8.ofNat h.seq) (UInt8.ofNat h.src) (UInt8.ofNat h.dst) (len :: tl)
  simp only [ZipHeader.bytes, List.cons_append, List.nil_append]
  rw [hz]
  simp only [zipBody, h1, hlen, or_self, if_false]
  by_cases hl : tl.length < len.toNat - 1
  · rw [if_pos hl]; exact ⟨_, rfl⟩
  · obtain ⟨e, he⟩ := hb.resolve_left hl
    rw [if_neg hl, he]
    exact ⟨_, rfl⟩

/-- **C15.** If, after any well-formed options, the extension contains an option of a type other than expected delay,
maintenance report or encapsulation info (with a length byte, whatever follows), or an option that is longer than what is
left of the extension, then decoding raises. -/
theorem C15_bad_option (h : ZipHeader) (hx : h.ext = true) (os : List (Bool × HdrOption)) (ho : ∀ o ∈ os, o.2.WellFormed)
    (b len : UInt8) (rest cmd : Bytes) (hb : b.toNat % 128 ∉ [1, 3, 4] ∨ rest.length < len.toNat)
    (hl : (optionsWire os ++ b :: len :: rest).length < 255) :
    ∃ e, decode (h.bytes ++ UInt8.ofNat ((optionsWire os ++ b :: len :: rest).length + 1) :: ((optionsWire os ++ b :: len :: rest) ++ cmd)) =
      .error e := by
  generalize hw : optionsWire os ++ b :: len :: rest = w at hl
  have hn : (UInt8.ofNat (w.length + 1)).toNat = w.length + 1 := toNat_length (by omega)
  apply zip_ext_error h hx
  · intro h0
    have := congrArg UInt8.toNat h0
    rw [hn] at this; simp at this
  · right
    rw [hn, Nat.add_sub_cancel, List.take_left', ← hw]
    · exact optionLoop_bad os b len rest _ ho (by omega) hb
    · rfl

/-- **C15.** If the extension is longer than the packet, decoding raises. -/
theorem C15_extension_too_long (h : ZipHeader) (hx : h.ext = true) (len : UInt8) (tl : Bytes) (hl : tl.length + 1 < len.toNat) :
    ∃ e, decode (h.bytes ++ len :: tl) = .error e := by
  apply zip_ext_error h hx
  · rintro rfl; simp at hl
  · left; omega

/-- A multicast option (type 5) after an expected delay; an option that claims four bytes where two are left. -/
example : (∃ e, decode [0x23, 0x02, 0x80, 0xC0, 0x01, 0x00, 0x00, 0x09, 0x81, 0x03, 0x00, 0x00, 0x05, 0x05, 0x01, 0x00, 0x20, 0x02] = .error e) ∧
    (∃ e, decode [0x23, 0x02, 0x80, 0xC0, 0x01, 0x00, 0x00, 0x05, 0x81, 0x04, 0x00, 0x00, 0x20, 0x02] = .error e) := by
  exact ⟨⟨.attribute, by decide +kernel⟩, ⟨.eof, by decide +kernel⟩⟩

/-! ## C77 -/

/-- **C77**, the property: a packet whose header extension declares length 0 (the length counts its own byte, so the
smallest possible value is 1) is rejected. -/
def C77_statement : Prop :=
  ∀ (h : ZipHeader) (tl : Bytes), h.Fits → h.ext = true → ∃ e, decode (h.bytes ++ 0 :: tl) = .error e

/-- **C77** is violated: such a packet is delivered, with a command that starts at the length byte. -/
theorem C77_violated : ¬ C77_statement := by
  intro h
  obtain ⟨e, he⟩ := h { ext := true, cmd := true, seq := 1, src := 0, dst := 0 } [0x25, 0x03, 0xFF] (by simp [ZipHeader.Fits]) rfl
  have : (decode (ZipHeader.bytes { ext := true, cmd := true, seq := 1, src := 0, dst := 0 } ++ 0 :: [0x25, 0x03, 0xFF])).isOk = true := by
    decide +kernel
  rw [he] at this
  cases this

/-- **C77**, what happens instead: the length byte is taken as the first byte of the command, which therefore has command class 0.
Missing for the full property: an error. -/
theorem C77_length_zero_partial (h : ZipHeader) (hf : h.Fits) (cmd : UInt8) (tl : Bytes) (hx : h.ext = true) :
    ∃ m, decode (h.bytes ++ 0 :: cmd :: tl) = .ok m ∧ Describes h m ∧ m.command = some (.unknown cmd.toNat) := by
  have hz := zip_decode h.flags0 h.flags1 (UInt8.ofNat h.seq) (UInt8.ofNat h.src) (UInt8.ofNat h.dst) (0 :: cmd :: tl)
  have hno : registry.find? (fun d => d.hid = (0 : UInt8).toNat * 256 + cmd.toNat) = none := by
    rw [List.find?_eq_none]
    intro d hd
    have : ∀ d ∈ registry, 256 ≤ d.hid := by decide +kernel
    have h1 := this d hd
    have h2 := UInt8.toNat_lt cmd
    simp; omega
  have hu : decode (0 :: cmd :: tl) = .ok (.unknown cmd.toNat) := by
    simp only [decode, decodeN, deserMsg_cons]
    simp only [hno]
    simp [bind, Except.bind, pure, Except.pure]
  simp only [zipBody, or_true, if_true, bind, Except.bind, hu] at hz
  simp only [ZipHeader.bytes, List.cons_append, List.nil_append]
  exact ⟨_, hz, describes_attrs h hf _ rfl (some []) rfl, rfl⟩

/-! ## C06, nested messages -/

/-- **C06** for Z/IP packets: composing a packet with any fixed part (without header extension) around any command that can be
composed gives the seven header bytes followed by the command, and if the command's bytes decode to `c'` then the packet decodes to a
packet with the same fixed part around `c'`. In particular packets nested to any depth round-trip. -/
theorem C06_zip_roundtrip (h : ZipHeader) (hf : h.Fits) (hx : h.ext = false) (c : Msg) (cb : Bytes) (hc : compose c = .ok cb) :
    ∃ p, constructZip (argKw h.args) c = .ok p ∧ compose p = .ok (h.bytes ++ cb) ∧
      (cb ≠ [] → ∀ c', decode cb = .ok c' → ∃ m, decode (h.bytes ++ cb) = .ok m ∧ Describes h m ∧ m.command = some c') ∧
      (cb = [] → ∃ m, decode (h.bytes ++ cb) = .ok m ∧ Describes h m ∧ m.command = none) := by
  obtain ⟨attrs, e, hcomp⟩ := zip_compose h hf
  refine ⟨.wrap 0x2302 attrs c, by simp only [constructZip, e, bind, Except.bind]; rfl, hcomp c cb hc, ?_, ?_⟩
  · intro hne c' hd
    have hz := zip_decode h.flags0 h.flags1 (UInt8.ofNat h.seq) (UInt8.ofNat h.src) (UInt8.ofNat h.dst) cb
    have hb : zipBody h.flags1 cb = .ok (some [], cb) := by
      cases cb with
      | nil => exact absurd rfl hne
      | cons len tl =>
        have : h.flags1.toNat < 128 := (flags1_ext h).mpr hx
        simp [zipBody, this]
    rw [hb] at hz
    simp only [bind, Except.bind, hd, if_neg hne] at hz
    exact ⟨_, hz, describes_attrs h hf _ rfl (some []) rfl, rfl⟩
  · rintro rfl
    have hz := zip_decode h.flags0 h.flags1 (UInt8.ofNat h.seq) (UInt8.ofNat h.src) (UInt8.ofNat h.dst) []
    exact ⟨_, hz, describes_attrs h hf _ rfl none rfl, rfl⟩

/-- A Z/IP packet in a Z/IP packet in a Z/IP packet. -/
example : ∃ c, decode [0x25, 0x02] = .ok c ∧
    (constructZip (argKw (ZipHeader.args { ackRequest := true, cmd := true, seq := 1, src := 0, dst := 0 })) c).bind
      (fun p => (constructZip (argKw (ZipHeader.args { secure := true, cmd := true, seq := 255, src := 127, dst := 3 })) p).bind compose) =
      .ok [0x23, 0x02, 0x00, 0x50, 0xFF, 0x7F, 0x03, 0x23, 0x02, 0x80, 0x40, 0x01, 0x00, 0x00, 0x25, 0x02] ∧
    ∃ m m' : Msg, decode [0x23, 0x02, 0x00, 0x50, 0xFF, 0x7F, 0x03, 0x23, 0x02, 0x80, 0x40, 0x01, 0x00, 0x00, 0x25, 0x02] = .ok m ∧
      m.command = some m' ∧ m'.command = some c := by
  refine ⟨_, rfl, ?_, _, _, rfl, rfl, rfl⟩
  decide +kernel

end Props

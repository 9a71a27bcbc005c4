import Verif.Lemmas.Decode
import Verif.Model.Registry
import Verif.Spec.Layouts
/-! Helper lemmas: decoding a composed message. -/
namespace Model
open Spec

/-- checked once per message class by evaluation, for decoding -/
def staticDec (d : MsgDef) : Bool :=
  d.fields.all (fun f => f.parse.isNone) &&
  d.fields.all (fun f => f.ty != .uint 0 && subBits f.ty != some 0) &&
  d.fields.all (fun f => isRes f.ty || typeOf d.fields f.name == f.ty) &&
  restLast d.fields

/-- `L` describes the class `d`. -/
def layoutMatches (L : Layout) (d : MsgDef) : Bool :=
  d.name == L.title && d.cc == L.cc && d.cmd == L.cmd && slotsOf d.fields == some L.slots && staticOk d &&
  (staticDec d || d.name == "Mailbox.NodeFailing") &&
  (resNames d.fields).all (fun n => reservedNames.contains n)

theorem layouts_match : ∀ L ∈ layouts, ∃ d ∈ registry, layoutMatches L d = true := by
  have h : layouts.all (fun L => registry.any (fun d => layoutMatches L d)) = true := by decide +kernel
  simpa [List.all_eq_true, List.any_eq_true] using h

theorem find_hid : ∀ d ∈ registry, registry.find? (fun e => e.hid = d.hid) = some d := by decide +kernel

theorem registry_bytes : ∀ d ∈ registry, d.cc < 256 ∧ d.cmd < 256 := by decide +kernel

theorem hid_bits (cc cmd : Nat) (h : cmd < 256) : (cc <<< 8) ||| (cmd &&& 0xFF) = cc * 256 + cmd % 256 := by
  have h1 : cmd &&& 0xFF = cmd := by
    rw [show (0xFF : Nat) = 2 ^ 8 - 1 from rfl, Nat.and_two_pow_sub_one_eq_mod]; omega
  rw [h1, ← Nat.shiftLeft_add_eq_or_of_lt (by simpa using h), Nat.shiftLeft_eq]
  omega

theorem toBits_uint8 {n : Nat} (h : n < 256) : toBits 8 (UInt8.ofNat n).toNat = toBits 8 n := by
  simp [Nat.mod_eq_of_lt h]

/-- Decoding starts with two bytes that select the class. -/
theorem deserMsg_head {b : Bytes} {cc cmd : Nat} {bits : List Bool} {d : MsgDef} {depth : Nat}
    (hcc : cc < 256) (hcmd : cmd < 256) (hb : bitsOf b = toBits 8 cc ++ toBits 8 cmd ++ bits)
    (hd : registry.find? (fun e => e.hid = cc * 256 + cmd % 256) = some d) :
    ∃ r, r.start = 16 ∧ r.data = b ∧ r.start ≤ 8 * r.data.length ∧ r.rest = bits ∧
      deserMsg registry (depth + 1) (Reader.new b) = (do
        let (attrs, c, r) ← parseFields d.fields (deserMsg registry depth) d.fields r []
        match c with
        | none => pure (.known (cc * 256 + cmd % 256) attrs, r)
        | some m => pure (.wrap (cc * 256 + cmd % 256) attrs m, r)) := by
  have hlen := congrArg List.length hb
  simp at hlen
  have h1 := Reader.byte_rest (r := Reader.new b) (b := UInt8.ofNat cc) (tl := toBits 8 cmd ++ bits) rfl
    (by rw [toBits_uint8 hcc]; simpa [Reader.rest, Reader.new] using hb) (by simp [Reader.new])
  have h2 := Reader.byte_rest (r := (Reader.new b).advance 8) (b := UInt8.ofNat cmd) (tl := bits) (by simp [Reader.new, Reader.advance])
    (by rw [toBits_uint8 hcmd]; exact h1.2) (by simp [Reader.new, Reader.advance]; omega)
  refine ⟨((Reader.new b).advance 8).advance 8, rfl, rfl, by simp [Reader.new, Reader.advance]; omega, h2.2, ?_⟩
  have hbl : ¬ (Reader.new b).bytesLeft < 2 := by simp [Reader.bytesLeft, Reader.new]; omega
  have hc1 : (UInt8.ofNat cc).toNat = cc := by simp [Nat.mod_eq_of_lt hcc]
  have hc2 : (UInt8.ofNat cmd).toNat = cmd := by simp [Nat.mod_eq_of_lt hcmd]
  rw [deserMsg, if_neg hbl, h1.1]
  simp only [bind, Except.bind]
  rw [h2.1]
  simp only [hc1, hc2, hid_bits cc cmd hcmd, hd]
  rfl

theorem getAttr_of_find {m : Msg} {d : MsgDef} {f : Field} (hf : f ∈ d.fields) (hm : registry.find? (fun e => e.hid = m.hid) = some d)
    (hty : typeOf d.fields f.name = f.ty) :
    getAttr registry m f.name = (m.attr f.name).or (defaultVal f.ty) := by
  unfold getAttr
  cases m.attr f.name with
  | some v => rfl
  | none =>
    simp only [hm, Option.none_or]
    unfold typeOf at hty
    cases hg : d.fields.find? (fun g => g.name = f.name) with
    | none =>
      have := List.find?_eq_none.mp hg f hf
      simp at this
    | some g =>
      rw [hg] at hty
      simp only at hty ⊢
      rw [hty]

theorem decode_layout {d : MsgDef} {ss : List Slot} {a : Args} {bits : List Bool} {b : Bytes}
    (hd : d ∈ registry) (hok : staticOk d = true) (hdec : staticDec d = true) (hs : slotsOf d.fields = some ss)
    (hb : slotsWire a ss = some bits) (hu : ∀ s ∈ ss, s.Unambiguous a)
    (hbits : bitsOf b = toBits 8 d.cc ++ toBits 8 d.cmd ++ bits) :
    ∃ m, decode b = .ok m ∧ m.hid = d.hid ∧
      ∀ s ∈ ss, ∀ n x, s.readBack a = some (n, x) → (getAttr registry m n).bind valArg = some x := by
  obtain ⟨hcc, hcmd⟩ := registry_bytes d hd
  simp only [staticOk, Bool.and_eq_true, decide_eq_true_eq, List.all_eq_true, Option.isNone_iff_eq_none, beq_iff_eq] at hok
  obtain ⟨⟨⟨⟨⟨_, hal⟩, _⟩, hnd⟩, hdis⟩, _⟩ := hok
  simp only [staticDec, Bool.and_eq_true, List.all_eq_true, Option.isNone_iff_eq_none, bne_iff_ne, Bool.or_eq_true, beq_iff_eq] at hdec
  obtain ⟨⟨⟨hp, hpos⟩, hty⟩, hlast⟩ := hdec
  have hfind := find_hid d hd
  have hty' : ∀ f ∈ d.fields, isRes f.ty = false → typeOf d.fields f.name = f.ty := by
    intro f hf hr
    rcases hty f hf with h | h
    · rw [hr] at h; cases h
    · exact h
  obtain ⟨r, hr1, hr2, hr3, hr4, he⟩ := deserMsg_head (depth := b.length) hcc hcmd hbits hfind
  obtain ⟨attrs, r', e, hA, _, _⟩ := parseFields_ok (all := d.fields) (acc := []) (dec := deserMsg registry b.length) hs hp hb hu hpos hty'
    (by rw [hr1]; exact hal) hlast hr3 hr4 hnd hdis (by simp)
  refine ⟨.known d.hid attrs, ?_, rfl, ?_⟩
  · simp only [decode, decodeN, he, e, bind, Except.bind, pure, Except.pure, MsgDef.hid]
  · intro s hsm n x hrb
    -- find the field of the slot
    have : ∃ f ∈ d.fields, slotOf f = some s := by
      clear hA hty hty' hp hpos hal hlast hnd hdis he e hb hu hfind
      revert hs hsm
      generalize d.fields = fs
      intro hs hsm
      induction fs generalizing ss with
      | nil => simp [slotsOf] at hs; subst hs; cases hsm
      | cons g fs ih =>
        simp only [slotsOf] at hs
        split at hs
        · rename_i t ss' h1 h2
          cases hs
          rcases List.mem_cons.mp hsm with rfl | hsm
          · exact ⟨g, by simp, h1⟩
          · obtain ⟨f, hf, e⟩ := ih h2 hsm
            exact ⟨f, by simp [hf], e⟩
        · cases hs
    obtain ⟨f, hf, hsf⟩ := this
    cases hres : isRes f.ty with
    | true =>
      obtain ⟨nm, ty, ph, ch⟩ := f
      cases ty <;> simp [isRes] at hres
      simp [slotOf] at hsf
      subst hsf
      simp [Slot.readBack] at hrb
    | false =>
      obtain ⟨s', v, x', h1, h2, ⟨h3, -⟩, h4⟩ := hA f hf hres
      rw [hsf] at h1; cases h1
      rw [h4] at hrb; cases hrb
      rw [getAttr_of_find hf (by exact hfind) (hty' f hf hres)]
      simp only [Msg.attr, Msg.attrs]
      rw [h2]
      exact h3

theorem nodeFailing_unique : ∀ d ∈ registry, d.name = "Mailbox.NodeFailing" → d = Reg.Mailbox.NodeFailing := by
  decide +kernel

theorem decode_nodeFailing_attrs {ss : List Slot} {a : Args} {bits : List Bool} {b : Bytes}
    (hs : slotsOf Reg.Mailbox.NodeFailing.fields = some ss) (hb : slotsWire a ss = some bits)
    (hbits : bitsOf b = toBits 8 Reg.Mailbox.NodeFailing.cc ++ toBits 8 Reg.Mailbox.NodeFailing.cmd ++ bits) :
    ss = [.num "queueHandle" 8] ∧ ∃ v, a "queueHandle" = some (.int v) ∧ 0 ≤ v ∧ v < 256 ∧ bits = toBits 8 v.toNat ∧
      decode b = .ok (.known Reg.Mailbox.NodeFailing.hid [("queueHandle", .num (.uint 1) v)]) := by
  have hss : ss = [.num "queueHandle" 8] := by
    have : slotsOf Reg.Mailbox.NodeFailing.fields = some [.num "queueHandle" 8] := by decide
    rw [this] at hs; cases hs; rfl
  subst hss
  refine ⟨rfl, ?_⟩
  simp only [slotsWire, Slot.wire] at hb
  split at hb
  · rename_i x y hx hy
    cases hy; cases hb
    split at hx
    · rename_i v hv
      split at hx
      · rename_i hr
        cases hx
        obtain ⟨r, hr1, hr2, hr3, hr4, he⟩ := deserMsg_head (depth := b.length) (cc := 0x69) (cmd := 0x06)
          (d := Reg.Mailbox.NodeFailing) (by decide) (by decide) hbits (by decide +kernel)
        have hlt : v.toNat < 256 := toNat_lt_pow hr.1 hr.2
        have h1 := Reader.byte_rest (r := r) (b := UInt8.ofNat v.toNat) (tl := []) (by omega)
          (by rw [toBits_uint8 hlt]; simpa using hr4) hr3
        have hlen := congrArg List.length hr4
        rw [Reader.rest_length, hr1] at hlen
        simp at hlen
        have hbl : r.bytesLeft = 1 := by simp [Reader.bytesLeft, hr1]; omega
        have hv2 : (UInt8.ofNat v.toNat).toNat = v.toNat := by simp [Nat.mod_eq_of_lt hlt]
        refine ⟨v, hv, hr.1, hr.2, by simp, ?_⟩
        simp only [decode, decodeN, he, bind, Except.bind, pure, Except.pure]
        have : Reg.Mailbox.NodeFailing.fields = [⟨"queueHandle", .uint 1, some .nodeFailing, none⟩] := rfl
        simp [this, parseFields, hbl, runHook, h1.1, bind, Except.bind, pure, Except.pure, coerce, typeOf, Dict.set, hv2,
          Int.toNat_of_nonneg hr.1]
        rfl
      · cases hx
    · cases hx
  · cases hb

theorem decode_nodeFailing {ss : List Slot} {a : Args} {bits : List Bool} {b : Bytes}
    (hs : slotsOf Reg.Mailbox.NodeFailing.fields = some ss) (hb : slotsWire a ss = some bits)
    (hbits : bitsOf b = toBits 8 Reg.Mailbox.NodeFailing.cc ++ toBits 8 Reg.Mailbox.NodeFailing.cmd ++ bits) :
    ∃ m, decode b = .ok m ∧ m.hid = Reg.Mailbox.NodeFailing.hid ∧
      ∀ s ∈ ss, ∀ n x, s.readBack a = some (n, x) → (getAttr registry m n).bind valArg = some x := by
  obtain ⟨rfl, v, hv, -, -, -, hd⟩ := decode_nodeFailing_attrs hs hb hbits
  refine ⟨_, hd, rfl, ?_⟩
  intro s hsm n x hrb
  simp at hsm; subst hsm
  simp [Slot.readBack, hv] at hrb
  obtain ⟨rfl, rfl⟩ := hrb
  simp [getAttr, Msg.attr, Msg.attrs, Dict.get?, valArg]

theorem recompose_nodeFailing {ss : List Slot} {a : Args} {bits : List Bool} {b : Bytes}
    (hs : slotsOf Reg.Mailbox.NodeFailing.fields = some ss) (hb : slotsWire a ss = some bits)
    (hbits : bitsOf b = toBits 8 Reg.Mailbox.NodeFailing.cc ++ toBits 8 Reg.Mailbox.NodeFailing.cmd ++ bits) :
    ∃ m, decode b = .ok m ∧ compose m = .ok b := by
  obtain ⟨rfl, v, hv, h0, h1, hbv, hd⟩ := decode_nodeFailing_attrs hs hb hbits
  refine ⟨_, hd, ?_⟩
  have hbb : b = [0x69, 0x06, UInt8.ofNat v.toNat] := by
    apply bitsOf_inj
    rw [hbits, hbv]
    simp only [bitsOf_cons, bitsOf_nil, List.append_nil, toBits_uint8 (show v.toNat < 256 by omega)]
    simp [Reg.Mailbox.NodeFailing]
  have hfields : Reg.Mailbox.NodeFailing.fields = [⟨"queueHandle", .uint 1, some .nodeFailing, none⟩] := rfl
  have hf := find_hid Reg.Mailbox.NodeFailing (by decide +kernel)
  have e1 : toBytesBE v 1 false = .ok [UInt8.ofNat v.toNat] := by
    simp only [toBytesBE, Bool.false_eq_true, if_false]
    rw [if_pos (by omega)]
    simp [natToBE, Nat.mod_eq_of_lt (show v.toNat < 256 by omega)]
  have e2 : toBytesBE (Reg.Mailbox.NodeFailing.cc : Int) 1 false = .ok [0x69] := by decide
  have e3 : toBytesBE (Reg.Mailbox.NodeFailing.cmd : Int) 1 false = .ok [0x06] := by decide
  simp only [compose, composeWith, hf, composeDef]
  simp [hfields, composeFields, composeField, Dict.get?, serVal, Writer.addBytes, Writer.new, e1, e2, e3, bind, Except.bind, pure, Except.pure, hbb]

/-- attributes with the same name have the same type -/
def sameTypes (d : MsgDef) : Bool :=
  d.fields.all (fun f => d.fields.all (fun g => g.name != f.name || g.ty == f.ty))

theorem composeField_eq {attrs : Dict String Val} {cmd : Option (Py Bytes)} {f : Field} {w : Writer}
    (hm : f.ty ≠ .message) (hc : f.compose = none) :
    composeField attrs cmd f w = match (Dict.get? attrs f.name).or (defaultVal f.ty) with
      | some v => serVal v w
      | none => .error .attribute := by
  simp only [composeField, if_neg hm, hc]
  cases Dict.get? attrs f.name with
  | none => simp only [Option.none_or]; cases defaultVal f.ty <;> rfl
  | some v => rfl

theorem composeFields_congr {attrs attrs' : Dict String Val} {cmd : Option (Py Bytes)} {fs : List Field} {w : Writer}
    (h : ∀ f ∈ fs, ∀ w, composeField attrs cmd f w = composeField attrs' cmd f w) :
    composeFields attrs cmd fs w = composeFields attrs' cmd fs w := by
  induction fs generalizing w with
  | nil => rfl
  | cons f fs ih =>
    simp only [composeFields]
    rw [h f (by simp)]
    congr 1
    funext w'
    exact ih (fun g hg => h g (by simp [hg]))

theorem recompose_layout {d : MsgDef} {ss : List Slot} {a : Args} {bits : List Bool} {b : Bytes}
    (hd : d ∈ registry) (hok : staticOk d = true) (hdec : staticDec d = true) (hsame : sameTypes d = true)
    (hs : slotsOf d.fields = some ss)
    (hb : slotsWire a ss = some bits) (hu : ∀ s ∈ ss, s.Unambiguous a)
    (hres : ∀ n ∈ resNames d.fields, a n = none)
    (hbits : bitsOf b = toBits 8 d.cc ++ toBits 8 d.cmd ++ bits) :
    ∃ m, decode b = .ok m ∧ compose m = .ok b := by
  obtain ⟨attrs0, b0, e1, e2, e3⟩ := construct_compose (cmd := none) hok hs hb hres
  have hbb : b0 = b := bitsOf_inj (by rw [e3, hbits])
  subst hbb
  obtain ⟨hcc, hcmd⟩ := registry_bytes d hd
  simp only [staticOk, Bool.and_eq_true, decide_eq_true_eq, List.all_eq_true, Option.isNone_iff_eq_none, beq_iff_eq] at hok
  obtain ⟨⟨⟨⟨⟨_, hal⟩, hcomp⟩, hnd⟩, hdis⟩, _⟩ := hok
  simp only [staticDec, Bool.and_eq_true, List.all_eq_true, Option.isNone_iff_eq_none, bne_iff_ne, Bool.or_eq_true, beq_iff_eq] at hdec
  obtain ⟨⟨⟨hp, hpos⟩, hty⟩, hlast⟩ := hdec
  have hfind := find_hid d hd
  simp only [sameTypes, List.all_eq_true, Bool.or_eq_true, bne_iff_ne, beq_iff_eq] at hsame
  have hsm : ∀ f ∈ d.fields, ∀ g ∈ d.fields, g.name = f.name → g.ty = f.ty := by
    intro f hf g hg he
    rcases hsame f hf g hg with h | h
    · exact absurd he h
    · exact h
  have hty' : ∀ f ∈ d.fields, typeOf d.fields f.name = f.ty := by
    intro f hf
    unfold typeOf
    cases hg : d.fields.find? (fun g => g.name = f.name) with
    | none => exact absurd (List.find?_eq_none.mp hg f hf) (by simp)
    | some g =>
      exact hsm f hf g (List.mem_of_find?_eq_some hg) (by simpa using List.find?_some hg)
  obtain ⟨r, hr1, hr2, hr3, hr4, he⟩ := deserMsg_head (depth := b0.length) hcc hcmd hbits hfind
  obtain ⟨attrs, r', e, hA, _, hC⟩ := parseFields_ok (all := d.fields) (acc := []) (dec := deserMsg registry b0.length) hs hp hb hu hpos
    (fun f hf _ => hty' f hf) (by rw [hr1]; exact hal) hlast hr3 hr4 hnd hdis (by simp)
  refine ⟨.known d.hid attrs, ?_, ?_⟩
  · simp only [decode, decodeN, he, e, bind, Except.bind, pure, Except.pure, MsgDef.hid]
  · simp only [compose, composeWith, hfind]
    refine Eq.trans ?_ e2
    have key : ∀ w, composeFields attrs none d.fields w = composeFields attrs0 none d.fields w := ?_
    · simp only [composeDef, key]
    intro w0
    apply composeFields_congr
    intro f hf w
    obtain ⟨s, hsm1, hsf⟩ := mem_slotsOf hs hf
    have hmsg := slotOf_not_message hsf
    rw [composeField_eq hmsg (hcomp f hf), composeField_eq hmsg (hcomp f hf)]
    -- what the constructor stored
    have hres' : ∀ f ∈ d.fields, isRes f.ty = true → a f.name = none := by
      intro f hf hr
      exact hres _ (List.mem_map.mpr ⟨f, List.mem_filter.mpr ⟨hf, hr⟩, rfl⟩)
    obtain ⟨attrs1, e1', hA1, hB1⟩ := initAttrs_ok (acc := []) hs hb hres' hnd
    rw [e1] at e1'; cases e1'
    cases hr : isRes f.ty with
    | false =>
      have hst : Dict.get? attrs0 f.name = attrVal f a := by
        rw [hA1 f hf hr]
        cases h : a f.name <;> simp [attrVal, h]
      obtain ⟨_, v, x, _, h2, ⟨_, v0, h3, h4⟩, _⟩ := hA f hf hr
      rw [h2, hst, h3]
      exact h4 w
    | true =>
      have hst : Dict.get? attrs0 f.name = none := by
        rw [hB1 _ (Or.inr (hres' f hf hr))]; rfl
      rw [hst]
      rcases hC f hf hr (fun g hg => hsm f hf g hg) (hty' f hf) (Or.inl rfl) with h | h
      · rw [h]
      · rw [h]
        cases hft : f.ty <;> simp [hft, isRes] at hr
        rfl

end Model

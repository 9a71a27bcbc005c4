import Verif.Props.Messages
import Verif.Props.Conn
import Verif.Spec.Gateway
/-! Helper lemmas: the network management commands of the gateway. -/
namespace Model.Gateway
open Spec Props

theorem names_unique : ∀ d ∈ registry, ∀ e ∈ registry, d.name = e.name → d = e := by decide +kernel

theorem compose_of_layout {L : Layout} (hL : L ∈ layouts) {d : MsgDef} (hd : d ∈ registry) (hn : d.name = L.title) {a : Args} {b : Bytes}
    (hres : ∀ n ∈ reservedNames, a n = none) (hw : L.wire a = some (bitsOf b)) : ∃ m, construct d (argKw a) = .ok m ∧ compose m = .ok b := by
  obtain ⟨e, he, hen, h⟩ := C07_layout L hL
  obtain rfl := names_unique d hd e he (by rw [hn, hen])
  obtain ⟨m, b', h1, h2, h3⟩ := h a _ hres hw
  exact ⟨m, h1, by rw [h2, bitsOf_inj h3]⟩

/-- An integer argument. -/
abbrev arg1 (name : String) (v : Arg) (rest : Args) : Args := fun n => if n = name then some v else rest n

theorem argKw_arg1 (name : String) (v : Arg) (rest : Args) : argKw (arg1 name v rest) = kw1 name (argVal v) (argKw rest) := by
  funext n
  simp only [argKw, arg1, kw1]
  split <;> rfl

theorem argKw_none : argKw (fun _ => none) = fun _ => none := rfl

theorem boolVal_arg (b : Bool) : boolVal b = argVal (.int (if b then 1 else 0)) := rfl

theorem byte_bits {v : Int} (h : 0 ≤ v ∧ v < 256) : toBits 8 (byte v).toNat = toBits 8 v.toNat := by
  simp only [byte, UInt8.toNat_ofNat']
  rw [Nat.mod_eq_of_lt (by omega)]

theorem dsk_bits (l : Int) (h0 : 0 ≤ l) (h1 : l < 16) (a : Bool) :
    (((if a then (1 : Int) else 0) % 2 == 1) :: (List.replicate 3 false ++ toBits 4 l.toNat)) = toBits 8 (byte ((if a then 128 else 0) + l)).toNat := by
  obtain ⟨k, rfl⟩ := Int.eq_ofNat_of_zero_le h0
  have : ∀ k < 16, ∀ a : Bool,
      (((if a then (1 : Int) else 0) % 2 == 1) :: (List.replicate 3 false ++ toBits 4 k)) = toBits 8 (byte ((if a then 128 else 0) + (k : Int))).toNat := by
    decide +kernel
  exact this k (by omega) a

theorem seven_bits (e : Int) (h0 : 0 ≤ e) (h1 : e < 128) : false :: toBits 7 e.toNat = toBits 8 (byte e).toNat := by
  obtain ⟨k, rfl⟩ := Int.eq_ofNat_of_zero_le h0
  have : ∀ k < 128, false :: toBits 7 k = toBits 8 (byte (k : Int)).toNat := by decide +kernel
  exact this k (by omega)

theorem reserved_arg1 {name : String} {v : Arg} {rest : Args} (h : name ∉ reservedNames) (hr : ∀ n ∈ reservedNames, rest n = none) :
    ∀ n ∈ reservedNames, arg1 name v rest n = none := by
  intro n hn
  simp only [arg1]
  rw [if_neg (by rintro rfl; exact h hn)]
  exact hr n hn

theorem command_compose (c : Nm) (hf : NmFits c) (q : Nat) (hq : q < 256) : ∃ m, c.command q = .ok m ∧ compose m = .ok (nmBytes q c) := by
  have hqi : (q : Int) < 256 := by omega
  have hqb : toBits 8 (byte q).toNat = toBits 8 q := by rw [byte_bits (by omega)]; rfl
  cases c with
  | addNode tx =>
    have := compose_of_layout (L := ⟨"NetworkManagementInclusion.NodeAdd", 0x34, 0x01, [.num "seqNo" 8, .zero 8, .num "mode" 8, .num "txOptions" 8]⟩)
      (List.mem_of_getElem? (i := 41) rfl) (d := Reg.NetworkManagementInclusion.NodeAdd) (List.mem_of_getElem? (i := 47) rfl) rfl
      (a := arg1 "seqNo" (.int q) <| arg1 "mode" (.int 7) <| arg1 "txOptions" (.int tx) fun _ => none) (b := nmBytes q (.addNode tx))
      (by repeat' (first | (apply reserved_arg1 (by decide)) | (intro _ _; rfl))) (by
        simp only [NmFits, InByte] at hf
        simp [Layout.wire, slotsWire, Slot.wire, nmBytes, arg1, hqb, hqi, byte_bits hf, hf.1, hf.2]
        rfl)
    simp only [argKw_arg1, argKw_none] at this
    exact this
  | addNodeDSKSet a l d =>
    have := compose_of_layout (L := ⟨"NetworkManagementInclusion.NodeAddDSKSet", 0x34, 0x14, [.num "seqNo" 8, .flag "accept", .zero 3, .num "inputDSKLength" 4, .dsk "dsk"]⟩)
      (List.mem_of_getElem? (i := 43) rfl) (d := Reg.NetworkManagementInclusion.NodeAddDSKSet) (List.mem_of_getElem? (i := 49) rfl) rfl
      (a := arg1 "seqNo" (.int q) <| arg1 "accept" (.int (if a then 1 else 0)) <| arg1 "inputDSKLength" (.int l) <| arg1 "dsk" (.bytes d) fun _ => none) (b := nmBytes q (.addNodeDSKSet a l d))
      (by repeat' (first | (apply reserved_arg1 (by decide)) | (intro _ _; rfl))) (by
        simp only [NmFits, InByte] at hf
        have hd : d.length = 16 ∨ d = [] := by simpa using hf.2.2
        simp [Layout.wire, slotsWire, Slot.wire, nmBytes, arg1, hqb, hqi, hf.1, hf.2.1, hd]
        rw [← dsk_bits l hf.1 hf.2.1 a]
        simp)
    simp only [argKw_arg1, argKw_none] at this
    exact this
  | addNodeKeysSet c a k =>
    have := compose_of_layout (L := ⟨"NetworkManagementInclusion.NodeAddKeysSet", 0x34, 0x12, [.num "seqNo" 8, .zero 6, .flag "grantCSA", .flag "accept", .num "grantedKeys" 8]⟩)
      (List.mem_of_getElem? (i := 45) rfl) (d := Reg.NetworkManagementInclusion.NodeAddKeysSet) (List.mem_of_getElem? (i := 51) rfl) rfl
      (a := arg1 "seqNo" (.int q) <| arg1 "grantCSA" (.int (if c then 1 else 0)) <| arg1 "accept" (.int (if a then 1 else 0)) <| arg1 "grantedKeys" (.int k) fun _ => none) (b := nmBytes q (.addNodeKeysSet c a k))
      (by repeat' (first | (apply reserved_arg1 (by decide)) | (intro _ _; rfl))) (by
        simp only [NmFits, InByte] at hf
        simp [Layout.wire, slotsWire, Slot.wire, nmBytes, arg1, hqb, hqi, byte_bits hf, hf.1, hf.2]
        cases c <;> cases a <;> rfl)
    simp only [argKw_arg1, argKw_none] at this
    exact this
  | addNodeStop =>
    have := compose_of_layout (L := ⟨"NetworkManagementInclusion.NodeAdd", 0x34, 0x01, [.num "seqNo" 8, .zero 8, .num "mode" 8, .num "txOptions" 8]⟩)
      (List.mem_of_getElem? (i := 41) rfl) (d := Reg.NetworkManagementInclusion.NodeAdd) (List.mem_of_getElem? (i := 47) rfl) rfl
      (a := arg1 "seqNo" (.int q) <| arg1 "mode" (.int 5) <| arg1 "txOptions" (.int 0) fun _ => none) (b := nmBytes q (.addNodeStop))
      (by repeat' (first | (apply reserved_arg1 (by decide)) | (intro _ _; rfl))) (by
        simp [Layout.wire, slotsWire, Slot.wire, nmBytes, arg1, hqb, hqi]
        rfl)
    simp only [argKw_arg1, argKw_none] at this
    exact this
  | getFailedNodeList =>
    have := compose_of_layout (L := ⟨"NetworkManagementProxy.FailedNodeListGet", 0x52, 0x0B, [.num "seqNo" 8]⟩)
      (List.mem_of_getElem? (i := 55) rfl) (d := Reg.NetworkManagementProxy.FailedNodeListGet) (List.mem_of_getElem? (i := 62) rfl) rfl
      (a := arg1 "seqNo" (.int q) fun _ => none) (b := nmBytes q (.getFailedNodeList))
      (by repeat' (first | (apply reserved_arg1 (by decide)) | (intro _ _; rfl))) (by
        simp [Layout.wire, slotsWire, Slot.wire, nmBytes, arg1, hqb, hqi])
    simp only [argKw_arg1, argKw_none] at this
    exact this
  | getMultiChannelEndPoints n =>
    have := compose_of_layout (L := ⟨"NetworkManagementProxy.MultiChannelEndPointGet", 0x52, 0x05, [.num "seqNo" 8, .num "nodeID" 8]⟩)
      (List.mem_of_getElem? (i := 58) rfl) (d := Reg.NetworkManagementProxy.MultiChannelEndPointGet) (List.mem_of_getElem? (i := 66) rfl) rfl
      (a := arg1 "seqNo" (.int q) <| arg1 "nodeID" (.int n) fun _ => none) (b := nmBytes q (.getMultiChannelEndPoints n))
      (by repeat' (first | (apply reserved_arg1 (by decide)) | (intro _ _; rfl))) (by
        simp only [NmFits, InByte] at hf
        simp [Layout.wire, slotsWire, Slot.wire, nmBytes, arg1, hqb, hqi, byte_bits hf, hf.1, hf.2])
    simp only [argKw_arg1, argKw_none] at this
    exact this
  | getMultiChannelCapability n e =>
    have := compose_of_layout (L := ⟨"NetworkManagementProxy.MultiChannelCapabilityGet", 0x52, 0x07, [.num "seqNo" 8, .num "nodeID" 8, .zero 1, .num "endPoint" 7]⟩)
      (List.mem_of_getElem? (i := 56) rfl) (d := Reg.NetworkManagementProxy.MultiChannelCapabilityGet) (List.mem_of_getElem? (i := 64) rfl) rfl
      (a := arg1 "seqNo" (.int q) <| arg1 "nodeID" (.int n) <| arg1 "endPoint" (.int e) fun _ => none) (b := nmBytes q (.getMultiChannelCapability n e))
      (by repeat' (first | (apply reserved_arg1 (by decide)) | (intro _ _; rfl))) (by
        simp only [NmFits, InByte] at hf
        simp [Layout.wire, slotsWire, Slot.wire, nmBytes, arg1, hqb, hqi, byte_bits hf.1, hf.1.1, hf.1.2, hf.2.1, hf.2.2]
        rw [← seven_bits e hf.2.1 hf.2.2])
    simp only [argKw_arg1, argKw_none] at this
    exact this
  | getNodeList =>
    have := compose_of_layout (L := ⟨"NetworkManagementProxy.NodeListGet", 0x52, 0x01, [.num "seqNo" 8]⟩)
      (List.mem_of_getElem? (i := 62) rfl) (d := Reg.NetworkManagementProxy.NodeListGet) (List.mem_of_getElem? (i := 70) rfl) rfl
      (a := arg1 "seqNo" (.int q) fun _ => none) (b := nmBytes q (.getNodeList))
      (by repeat' (first | (apply reserved_arg1 (by decide)) | (intro _ _; rfl))) (by
        simp [Layout.wire, slotsWire, Slot.wire, nmBytes, arg1, hqb, hqi])
    simp only [argKw_arg1, argKw_none] at this
    exact this
  | getNodeInfo n =>
    have := compose_of_layout (L := ⟨"NetworkManagementProxy.NodeInfoCachedGet", 0x52, 0x03, [.num "seqNo" 8, .zero 4, .num "maxAge" 4, .num "nodeID" 8]⟩)
      (List.mem_of_getElem? (i := 60) rfl) (d := Reg.NetworkManagementProxy.NodeInfoCachedGet) (List.mem_of_getElem? (i := 68) rfl) rfl
      (a := arg1 "seqNo" (.int q) <| arg1 "maxAge" (.int 15) <| arg1 "nodeID" (.int n) fun _ => none) (b := nmBytes q (.getNodeInfo n))
      (by repeat' (first | (apply reserved_arg1 (by decide)) | (intro _ _; rfl))) (by
        simp only [NmFits, InByte] at hf
        simp [Layout.wire, slotsWire, Slot.wire, nmBytes, arg1, hqb, hqi, byte_bits hf, hf.1, hf.2]
        rfl)
    simp only [argKw_arg1, argKw_none] at this
    exact this
  | removeFailedNode n =>
    have := compose_of_layout (L := ⟨"NetworkManagementInclusion.FailedNodeRemove", 0x34, 0x07, [.num "seqNo" 8, .num "nodeID" 8]⟩)
      (List.mem_of_getElem? (i := 36) rfl) (d := Reg.NetworkManagementInclusion.FailedNodeRemove) (List.mem_of_getElem? (i := 42) rfl) rfl
      (a := arg1 "seqNo" (.int q) <| arg1 "nodeID" (.int n) fun _ => none) (b := nmBytes q (.removeFailedNode n))
      (by repeat' (first | (apply reserved_arg1 (by decide)) | (intro _ _; rfl))) (by
        simp only [NmFits, InByte] at hf
        simp [Layout.wire, slotsWire, Slot.wire, nmBytes, arg1, hqb, hqi, byte_bits hf, hf.1, hf.2])
    simp only [argKw_arg1, argKw_none] at this
    exact this
  | removeNode =>
    have := compose_of_layout (L := ⟨"NetworkManagementInclusion.NodeRemove", 0x34, 0x03, [.num "seqNo" 8, .zero 8, .num "mode" 8]⟩)
      (List.mem_of_getElem? (i := 48) rfl) (d := Reg.NetworkManagementInclusion.NodeRemove) (List.mem_of_getElem? (i := 55) rfl) rfl
      (a := arg1 "seqNo" (.int q) <| arg1 "mode" (.int 1) fun _ => none) (b := nmBytes q (.removeNode))
      (by repeat' (first | (apply reserved_arg1 (by decide)) | (intro _ _; rfl))) (by
        simp [Layout.wire, slotsWire, Slot.wire, nmBytes, arg1, hqb, hqi]
        rfl)
    simp only [argKw_arg1, argKw_none] at this
    exact this
  | removeNodeStop =>
    have := compose_of_layout (L := ⟨"NetworkManagementInclusion.NodeRemove", 0x34, 0x03, [.num "seqNo" 8, .zero 8, .num "mode" 8]⟩)
      (List.mem_of_getElem? (i := 48) rfl) (d := Reg.NetworkManagementInclusion.NodeRemove) (List.mem_of_getElem? (i := 55) rfl) rfl
      (a := arg1 "seqNo" (.int q) <| arg1 "mode" (.int 5) fun _ => none) (b := nmBytes q (.removeNodeStop))
      (by repeat' (first | (apply reserved_arg1 (by decide)) | (intro _ _; rfl))) (by
        simp [Layout.wire, slotsWire, Slot.wire, nmBytes, arg1, hqb, hqi]
        rfl)
    simp only [argKw_arg1, argKw_none] at this
    exact this

theorem command_ok (c : Nm) (hf : NmFits c) (q : Nat) : ∃ m, c.command q = .ok m := by
  have hl : ∀ a l d, c = .addNodeDSKSet a l d → (d.length = 16 ∨ d.length = 0) := by rintro a l d rfl; exact hf.2.2
  cases c with
  | addNodeDSKSet a l d =>
    have h := hl _ _ _ rfl
    have h' : coerceInit .dsk (.bytes d) = .ok (.dsk d) := by simp only [coerceInit, if_pos h]
    have hx : ∃ attrs, initAttrs (kw1 "seqNo" (.num .pyint q) (Nm.addNodeDSKSet a l d).args) Reg.NetworkManagementInclusion.NodeAddDSKSet.fields [] = .ok attrs := by
      simp [initAttrs, Reg.NetworkManagementInclusion.NodeAddDSKSet, Nm.args, kw1, h', boolVal, bind, Except.bind, pure, Except.pure]
      simp [coerceInit]
    obtain ⟨attrs, hx⟩ := hx
    exact ⟨.known Reg.NetworkManagementInclusion.NodeAddDSKSet.hid attrs, by simp only [Nm.command, construct, Nm.cls, hx, bind, Except.bind, pure, Except.pure]⟩
  | _ => exact ⟨_, rfl⟩

theorem initAttrs_keep (kw : String → Option Val) (n : String) : ∀ (fs : List Field) (acc attrs : Dict String Val), (∀ f ∈ fs, f.name ≠ n) →
    initAttrs kw fs acc = .ok attrs → Dict.get? attrs n = Dict.get? acc n := by
  intro fs
  induction fs with
  | nil => intro acc attrs _ h; cases h; rfl
  | cons f fs ih =>
    intro acc attrs hn h
    simp only [initAttrs] at h
    split at h
    · exact ih _ _ (fun g hg => hn g (List.mem_cons_of_mem _ hg)) h
    · obtain ⟨v, -, h⟩ := bind_ok h
      rw [ih _ _ (fun g hg => hn g (List.mem_cons_of_mem _ hg)) h, Dict.get?_set_ne _ _ (hn f List.mem_cons_self)]

theorem compose_seq_overflow {d : MsgDef} (hd : d ∈ registry) {fs : List Field} (hfs : d.fields = ⟨"seqNo", .uint 1, none, none⟩ :: fs)
    {attrs : Dict String Val} {q : Nat} (hq : 256 ≤ q) (ha : Dict.get? attrs "seqNo" = some (.num (.uint 1) q)) :
    compose (.known d.hid attrs) = .error .overflow := by
  obtain ⟨hcc, hcmd⟩ := registry_bytes d hd
  obtain ⟨w1, e1, ok1, b1, s1⟩ := addBytes_uint (w := Writer.new) (v := d.cc) (n := 1) rfl (by omega) (by omega)
  obtain ⟨w2, e2, ok2, b2, s2⟩ := addBytes_uint (w := w1) (v := d.cmd) (n := 1) s1 (by omega) (by omega)
  have hov : toBytesBE (q : Int) 1 false = .error .overflow := by
    simp only [toBytesBE, Bool.false_eq_true, if_false]
    rw [if_neg (by omega)]
  simp only [compose, composeWith, find_hid d hd, composeDef]
  rw [e1]
  simp only [bind, Except.bind]
  rw [e2]
  simp [hfs, composeFields, composeField, ha, serVal, Writer.addBytes, hov, bind, Except.bind]

theorem cls_fields (c : Nm) : c.cls ∈ registry ∧ ∃ fs, c.cls.fields = ⟨"seqNo", .uint 1, none, none⟩ :: fs ∧ ∀ f ∈ fs, f.name ≠ "seqNo" := by
  have : ∀ d ∈ [Reg.NetworkManagementInclusion.NodeAdd, Reg.NetworkManagementInclusion.NodeAddDSKSet, Reg.NetworkManagementInclusion.NodeAddKeysSet,
      Reg.NetworkManagementProxy.FailedNodeListGet, Reg.NetworkManagementProxy.MultiChannelEndPointGet,
      Reg.NetworkManagementProxy.MultiChannelCapabilityGet, Reg.NetworkManagementProxy.NodeListGet, Reg.NetworkManagementProxy.NodeInfoCachedGet,
      Reg.NetworkManagementInclusion.FailedNodeRemove, Reg.NetworkManagementInclusion.NodeRemove],
      d ∈ registry ∧ d.fields.head? = some ⟨"seqNo", .uint 1, none, none⟩ ∧ ∀ f ∈ d.fields.tail, f.name ≠ "seqNo" := by decide +kernel
  have h := this c.cls (by cases c <;> simp [Nm.cls])
  refine ⟨h.1, c.cls.fields.tail, ?_, h.2.2⟩
  have h2 := h.2.1
  cases hf : c.cls.fields with
  | nil => rw [hf] at h2; cases h2
  | cons x xs => rw [hf] at h2; cases h2; rfl

theorem command_overflow (c : Nm) (q : Nat) (hq : 256 ≤ q) (m : Msg) (h : c.command q = .ok m) : compose m = .error .overflow := by
  obtain ⟨hd, fs, hfs, hn⟩ := cls_fields c
  simp only [Nm.command, construct] at h
  obtain ⟨attrs, h1, h2⟩ := bind_ok h
  cases h2
  refine compose_seq_overflow hd hfs hq ?_
  rw [hfs] at h1
  simp only [initAttrs, kw1, if_true, coerceInit, bind, Except.bind] at h1
  rw [initAttrs_keep _ "seqNo" fs _ _ hn h1]
  simp [Dict.set, Dict.get?]

/-- The datagram of a send, and the exception if the command cannot be composed. -/
theorem packetFor_bind (q src dst : Nat) (hq : q < 256) (hs : src < 128) (hd : dst < 128) (cmd : Msg) :
    (Conn.packetFor q src dst cmd).bind compose = (compose cmd).bind (fun cb =>
      .ok (ZipHeader.bytes { ackRequest := true, cmd := true, secure := true, seq := q, src := src, dst := dst } ++ cb)) := by
  obtain ⟨attrs, e, hc⟩ := zip_compose_bind { ackRequest := true, cmd := true, secure := true, seq := q, src := src, dst := dst } ⟨hq, hs, hd⟩
  have hh : Reg.Zip.ZipPacket.hid = 0x2302 := rfl
  have hz : constructZip (argKw (ZipHeader.args { ackRequest := true, cmd := true, secure := true, seq := q, src := src, dst := dst })) cmd =
      .ok (.wrap 0x2302 attrs cmd) := by
    simp only [constructZip, e, hh, bind, Except.bind, pure, Except.pure]
  have hb : ∀ m, (Except.ok m : Py Msg).bind compose = compose m := fun _ => rfl
  rw [packetFor_eq, hz, hb]
  exact hc cmd

end Model.Gateway

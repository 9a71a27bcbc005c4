import Verif.Lemmas.Fields
import Verif.Spec.Kinds
/-!
# Property theorems C16, C18 - C20: collections in messages
-/
namespace Props
open Spec Model

/-! ## C16 -/

/-- **C16.** A node list whose ids fit in a byte and are not 0 is written as the plain nodes, then (if needed) the marker and the
(node, end point) pairs; reading that gives the plain nodes followed by the ones with an end point. -/
theorem C16_nodes_wire (l : List (Nat × Option Nat)) (hf : nodesFit l = true) (h0 : ∀ n, (n, none) ∈ l → n ≠ 0) :
    ∃ b, serNodes l = .ok b ∧ b.map UInt8.toNat = nodesWire l ∧ deserNodes b = .ok (targetsNormal l) := by
  have hp : 0 ∉ plainTargets l := by
    intro h
    have : ∀ l : List (Nat × Option Nat), 0 ∈ plainTargets l → (0, none) ∈ l := by
      intro l
      induction l with
      | nil => intro h; cases h
      | cons p l ih =>
        obtain ⟨n, e⟩ := p
        cases e with
        | none =>
          intro h
          simp only [plainTargets, List.mem_cons] at h
          rcases h with h | h
          · simp [h]
          · simp [ih h]
        | some e => intro h; simp only [plainTargets] at h; simp [ih h]
    exact h0 0 (this l h) rfl
  refine ⟨(nodesWire l).map UInt8.ofNat, serNodes_ok l hf, ?_, deserNodes_wire l hf hp⟩
  rw [List.map_map]
  conv => rhs; rw [← List.map_id (nodesWire l)]
  apply List.map_congr_left
  intro n hn
  exact toNat_length (nodesWire_lt l hf n hn)

/-- **C16.** Reordering is the only effect: the same targets come back, and a list that already has the plain nodes first is
unchanged. -/
theorem C16_same_targets (l : List (Nat × Option Nat)) :
    (targetsNormal l).Perm l ∧
      (∀ (pl : List Nat) (pt : List (Nat × Nat)), l = pl.map (fun n => (n, none)) ++ pt.map (fun p : Nat × Nat => (p.1, some p.2)) → targetsNormal l = l) := by
  constructor
  · induction l with
    | nil => exact List.Perm.refl _
    | cons p l ih =>
      obtain ⟨n, e⟩ := p
      cases e with
      | none => exact List.Perm.cons _ ih
      | some e =>
        simp only [targetsNormal, plainTargets, pointTargets, List.map_cons] at ih ⊢
        exact List.perm_middle.trans (List.Perm.cons _ ih)
  · rintro pl pt rfl
    have h1 : ∀ pl : List Nat, ∀ x, plainTargets (pl.map (fun n => (n, none)) ++ x) = pl ++ plainTargets x ∧
        pointTargets (pl.map (fun n => (n, none)) ++ x) = pointTargets x := by
      intro pl x
      induction pl with
      | nil => exact ⟨rfl, rfl⟩
      | cons n pl ih => simp [plainTargets, pointTargets, ih]
    have h2 : ∀ pt : List (Nat × Nat), plainTargets (pt.map (fun p => (p.1, some p.2))) = [] ∧
        pointTargets (pt.map (fun p => (p.1, some p.2))) = pt := by
      intro pt
      induction pt with
      | nil => exact ⟨rfl, rfl⟩
      | cons n pl ih => simp [plainTargets, pointTargets, ih]
    rw [targetsNormal, (h1 pl _).1, (h1 pl _).2, (h2 pt).1, (h2 pt).2, List.append_nil]

/-- **C16.** A node id or end point that does not fit in a byte is refused. -/
theorem C16_too_large (l : List (Nat × Option Nat)) (h : nodesFit l = false) : serNodes l = .error .value := by
  have hA : ∀ n, ¬ n < 256 → asByte n = .error .value := fun n hn => if_neg hn
  have hB : ∀ n, n < 256 → asByte n = .ok (UInt8.ofNat n) := fun n hn => if_pos hn
  -- the first loop fails exactly if a plain node is too large, the second if a pair is
  have h1 : ∀ l, serNodesPlain l = .error .value ∨ (∃ b, serNodesPlain l = .ok b) ∧ ∀ n, (n, none) ∈ l → n < 256 := by
    intro l
    induction l with
    | nil => exact Or.inr ⟨⟨[], rfl⟩, by simp⟩
    | cons p l ih =>
      obtain ⟨n, e⟩ := p
      cases e with
      | some e =>
        rcases ih with ih | ⟨⟨b, ih⟩, hn⟩
        · exact Or.inl ih
        · exact Or.inr ⟨⟨b, ih⟩, by simpa using hn⟩
      | none =>
        by_cases hn : n < 256
        · rcases ih with ih | ⟨⟨b, ih⟩, hm⟩
          · exact Or.inl (by simp [serNodesPlain, hB n hn, ih, bind, Except.bind])
          · refine Or.inr ⟨⟨_, by simp [serNodesPlain, hB n hn, ih, bind, Except.bind, pure, Except.pure]; rfl⟩, ?_⟩
            intro m hm'
            simp only [List.mem_cons, Prod.mk.injEq, and_true] at hm'
            rcases hm' with rfl | hm'
            · exact hn
            · exact hm m hm'
        · exact Or.inl (by simp [serNodesPlain, hA n hn, bind, Except.bind])
  have h2 : ∀ l, serNodesMulti l = .error .value ∨ ∀ n e, (n, some e) ∈ l → n < 256 ∧ e < 256 := by
    intro l
    induction l with
    | nil => exact Or.inr (by simp)
    | cons p l ih =>
      obtain ⟨n, e⟩ := p
      cases e with
      | none =>
        rcases ih with ih | hn
        · exact Or.inl ih
        · exact Or.inr (by simpa using hn)
      | some e =>
        by_cases hn : n < 256
        · by_cases he : e < 256
          · rcases ih with ih | hm
            · exact Or.inl (by simp [serNodesMulti, hB n hn, hB e he, ih, bind, Except.bind])
            · refine Or.inr ?_
              intro m f hm'
              simp only [List.mem_cons, Prod.mk.injEq, Option.some.injEq] at hm'
              rcases hm' with ⟨rfl, rfl⟩ | hm'
              · exact ⟨hn, he⟩
              · exact hm m f hm'
          · exact Or.inl (by simp [serNodesMulti, hB n hn, hA e he, bind, Except.bind])
        · exact Or.inl (by simp [serNodesMulti, hA n hn, bind, Except.bind])
  rcases h1 l with e | ⟨⟨b, e⟩, hn⟩
  · simp [serNodes, e, bind, Except.bind]
  · rcases h2 l with e2 | hm
    · have hany : l.any (fun p => p.2.isSome) = true := by
        cases ha : l.any (fun p => p.2.isSome) with
        | true => rfl
        | false =>
          exfalso
          have : nodesFit l = true := by
            simp only [nodesFit, List.all_eq_true]
            rintro ⟨n, e'⟩ hp
            cases e' with
            | none => simpa using hn n hp
            | some e' =>
              simp only [List.any_eq_false] at ha
              exact absurd rfl (ha _ hp)
          rw [this] at h; cases h
      simp [serNodes, e, e2, bind, Except.bind, hany]
    · exfalso
      have : nodesFit l = true := by
        simp only [nodesFit, List.all_eq_true]
        rintro ⟨n, e'⟩ hp
        cases e' with
        | none => simpa using hn n hp
        | some e' => have := hm n e' hp; simpa using this
      rw [this] at h; cases h

/-- Plain and end point targets mixed: the plain ones come first after a trip over the wire. -/
example : serNodes [(4, some 2), (1, none), (5, some 0), (3, none)] = .ok [1, 3, 0, 4, 2, 5, 0] ∧
    deserNodes [1, 3, 0, 4, 2, 5, 0] = .ok [(1, none), (3, none), (4, some 2), (5, some 0)] := by decide +kernel

/-! ## C18 -/

/-- Node `n` is marked in a node mask: bit `(n-1) mod 8` of byte `(n-1) div 8`. -/
def MarkedIn (mask : Bytes) (n : Nat) : Prop :=
  1 ≤ n ∧ ∃ b, mask[(n - 1) / 8]? = some b ∧ b.toNat.testBit ((n - 1) % 8) = true

theorem parse_nodeList {all : List Field} {dec : Reader → Py (Msg × Reader)} {name : String} (pre mask extra : Bytes) (acc : Dict String Val)
    (start : Nat) (hst : start = 8 * pre.length) (h : mask.length = 28) :
    ∃ l r, parseFields all dec [⟨name, .nodeList, none, none⟩] ⟨pre ++ (mask ++ extra), start⟩ acc =
        .ok (Dict.set acc name (.nodeSet l), none, r) ∧ l.Pairwise (· < ·) ∧ ∀ n, n ∈ l ↔ MarkedIn mask n := by
  obtain ⟨l, e, hs, hl⟩ := deserNodeList_ok mask 0 pre extra
  rw [h] at e
  have hne : mask ++ extra ≠ [] := by intro h0; simp at h0; simp [h0.1] at h
  refine ⟨l, ⟨pre ++ mask ++ extra, 8 * (pre ++ mask).length⟩, ?_, hs, ?_⟩
  · rw [parse_last hst (by simp), if_neg hne]
    subst hst
    simp only [readField, deserVal, e, bind, Except.bind, pure, Except.pure, coerce]
  · intro n
    rw [hl, MarkedIn]
    simp only [Nat.mul_zero, Nat.sub_zero]
    constructor
    · rintro ⟨h1, h2⟩; exact ⟨by omega, h2⟩
    · rintro ⟨h1, h2⟩; exact ⟨by omega, h2⟩

/-- **C18.** A node list report with a complete mask decodes, and the node list contains exactly the marked nodes, each once. -/
theorem C18_node_list (seq status ctl : UInt8) (mask extra : Bytes) (h : mask.length = 28) :
    ∃ m l, decode (0x52 :: 0x02 :: seq :: status :: ctl :: (mask ++ extra)) = .ok m ∧ m.hid = 0x5202 ∧
      m.num? "seqNo" = some (seq.toNat : Int) ∧ m.num? "status" = some (status.toNat : Int) ∧
      m.num? "nodeListControllerId" = some (ctl.toNat : Int) ∧ m.attr "nodes" = some (.nodeSet l) ∧ l.Nodup ∧
      ∀ n, n ∈ l ↔ MarkedIn mask n := by
  rw [decode_def (d := Reg.NetworkManagementProxy.NodeListReport) (by decide +kernel) _ _ (by decide)]
  simp only [Reg.NetworkManagementProxy.NodeListReport]
  step_u8 seq
  step_u8 status
  step_u8 ctl
  obtain ⟨l, r, e, hs, hl⟩ := parse_nodeList (all := Reg.NetworkManagementProxy.NodeListReport.fields)
    (dec := deserMsg registry ((seq :: status :: ctl :: (mask ++ extra)).length + 2)) (name := "nodes") [0x52, 0x02, seq, status, ctl] mask extra
    [("seqNo", .num (.uint 1) seq.toNat), ("status", .num (.uint 1) status.toNat), ("nodeListControllerId", .num (.uint 1) ctl.toNat)] 40 rfl h
  simp only [Reg.NetworkManagementProxy.NodeListReport, List.cons_append, List.nil_append] at e
  rw [e]
  exact ⟨_, l, rfl, rfl, rfl, rfl, rfl, rfl, hs.imp (fun h => Nat.ne_of_lt h), hl⟩

/-- **C18.** The same for failed node list reports. -/
theorem C18_failed_node_list (seq : UInt8) (mask extra : Bytes) (h : mask.length = 28) :
    ∃ m l, decode (0x52 :: 0x0C :: seq :: (mask ++ extra)) = .ok m ∧ m.hid = 0x520C ∧
      m.num? "seqNo" = some (seq.toNat : Int) ∧ m.attr "failedNodeList" = some (.nodeSet l) ∧ l.Nodup ∧
      ∀ n, n ∈ l ↔ MarkedIn mask n := by
  rw [decode_def (d := Reg.NetworkManagementProxy.FailedNodeListReport) (by decide +kernel) _ _ (by decide)]
  simp only [Reg.NetworkManagementProxy.FailedNodeListReport]
  step_u8 seq
  obtain ⟨l, r, e, hs, hl⟩ := parse_nodeList (all := Reg.NetworkManagementProxy.FailedNodeListReport.fields)
    (dec := deserMsg registry ((seq :: (mask ++ extra)).length + 2)) (name := "failedNodeList") [0x52, 0x0C, seq] mask extra
    [("seqNo", .num (.uint 1) seq.toNat)] 24 rfl h
  simp only [Reg.NetworkManagementProxy.FailedNodeListReport, List.cons_append, List.nil_append] at e
  rw [e]
  exact ⟨_, l, rfl, rfl, rfl, rfl, hs.imp (fun h => Nat.ne_of_lt h), hl⟩

/-- **C18.** A shorter, non-empty mask makes decoding raise EOFError. -/
theorem C18_short_mask (seq status ctl : UInt8) (mask : Bytes) (h0 : mask ≠ []) (h : mask.length < 28) :
    decode (0x52 :: 0x02 :: seq :: status :: ctl :: mask) = .error .eof ∧ decode (0x52 :: 0x0C :: seq :: mask) = .error .eof := by
  constructor
  · rw [decode_def (d := Reg.NetworkManagementProxy.NodeListReport) (by decide +kernel) _ _ (by decide)]
    simp only [Reg.NetworkManagementProxy.NodeListReport]
    step_u8 seq
    step_u8 status
    step_u8 ctl
    have e := deserNodeList_eof mask 28 0 [0x52, 0x02, seq, status, ctl] h
    rw [show 0x52 :: 0x02 :: seq :: status :: ctl :: mask = [0x52, 0x02, seq, status, ctl] ++ mask from rfl,
      parse_last (start := 40) rfl (by simp), if_neg h0]
    simp only [List.length_cons, List.length_nil, Nat.reduceAdd, Nat.reduceMul] at e
    simp only [readField, deserVal, e, bind, Except.bind]
  · rw [decode_def (d := Reg.NetworkManagementProxy.FailedNodeListReport) (by decide +kernel) _ _ (by decide)]
    simp only [Reg.NetworkManagementProxy.FailedNodeListReport]
    step_u8 seq
    have e := deserNodeList_eof mask 28 0 [0x52, 0x0C, seq] h
    rw [show 0x52 :: 0x0C :: seq :: mask = [0x52, 0x0C, seq] ++ mask from rfl, parse_last (start := 24) rfl (by simp), if_neg h0]
    simp only [List.length_cons, List.length_nil, Nat.reduceAdd, Nat.reduceMul] at e
    simp only [readField, deserVal, e, bind, Except.bind]

/-- Nodes 1, 9 and 224. -/
example : (decode ([0x52, 0x02, 0x11, 0x00, 0x01, 0x01, 0x01] ++ List.replicate 25 0 ++ [0x80])).map (·.attr "nodes") =
    .ok (some (.nodeSet [1, 9, 224])) := by decide +kernel

/-! ## C19 -/

/-- **C19** as wanted: every legal node id can be reported in some decodable message. -/
def C19_statement : Prop :=
  ∀ n, 1 ≤ n → n ≤ 232 → ∃ pkt m name l, decode pkt = .ok m ∧ m.attr name = some (.nodeSet l) ∧ n ∈ l

/-- **C19.** No node above 224 is in a node list of any decoded message. -/
theorem C19_limit (pkt : Bytes) (m : Msg) (name : String) (l : List Nat) (h : decode pkt = .ok m)
    (hl : m.attr name = some (.nodeSet l)) : ∀ n ∈ l, 1 ≤ n ∧ n ≤ 224 := by
  have := decode_attrs (P := fun v => ∀ l, v = .nodeSet l → ∀ n ∈ l, 1 ≤ n ∧ n ≤ 224) ?_ ?_ h name _ hl l rfl
  · exact this
  · intro f acc r v r' hr l hv
    subst hv
    unfold readField at hr
    split at hr
    · rename_i k _
      exfalso
      cases k <;> simp only [runHook] at hr
      · split at hr
        · split at hr
          · cases hr
          · obtain ⟨x, -, hr⟩ := bind_ok hr; cases hr
        · cases hr
      · cases hr
      · obtain ⟨x, -, hr⟩ := bind_ok hr; obtain ⟨y, -, hr⟩ := bind_ok hr; cases hr
      · obtain ⟨x, -, hr⟩ := bind_ok hr
        split at hr
        · cases hr
        · obtain ⟨y, -, hr⟩ := bind_ok hr; cases hr
      · obtain ⟨x, -, hr⟩ := bind_ok hr; obtain ⟨y, -, hr⟩ := bind_ok hr; cases hr
      · obtain ⟨x, -, hr⟩ := bind_ok hr; obtain ⟨y, -, hr⟩ := bind_ok hr; cases hr
      · obtain ⟨x, -, hr⟩ := bind_ok hr; obtain ⟨y, -, hr⟩ := bind_ok hr; cases hr
      · obtain ⟨x, -, hr⟩ := bind_ok hr; cases hr
    · generalize f.ty = t at hr
      cases t <;> simp only [deserVal] at hr
      case nodeList =>
        obtain ⟨⟨l', r1⟩, h1, hr⟩ := bind_ok hr
        cases hr
        intro n hn
        have := deserNodeList_range _ _ _ _ _ h1 n hn
        omega
      case float =>
        exfalso
        obtain ⟨x, -, hr⟩ := bind_ok hr; obtain ⟨x, -, hr⟩ := bind_ok hr; obtain ⟨x, -, hr⟩ := bind_ok hr
        obtain ⟨x, -, hr⟩ := bind_ok hr; cases hr
      all_goals
        exfalso
        first
          | cases hr; done
          | (obtain ⟨x, -, hr⟩ := bind_ok hr; cases hr; done)
          | (obtain ⟨x, -, hr⟩ := bind_ok hr; obtain ⟨x, -, hr⟩ := bind_ok hr; cases hr; done)
  · intro t v v' hv hc l hl
    subst hl
    cases v <;> simp only [coerce] at hc
    case nodeSet => cases hc; exact hv l rfl
    all_goals first
      | (cases hc; done)
      | (split at hc <;> cases hc; done)

/-- **C19** fails: node 225 can never be reported. -/
theorem C19_violated : ¬ C19_statement := by
  intro h
  obtain ⟨pkt, m, name, l, h1, h2, h3⟩ := h 225 (by omega) (by omega)
  have := C19_limit pkt m name l h1 h2 225 h3
  omega

/-- **C19**, what holds: the node ids 1 to 224 can be reported. Missing: 225 to 232. -/
theorem C19_reportable_partial (n : Nat) (h1 : 1 ≤ n) (h2 : n ≤ 224) :
    ∃ pkt m l, decode pkt = .ok m ∧ m.attr "nodes" = some (.nodeSet l) ∧ ∀ k, k ∈ l ↔ k = n := by
  obtain ⟨m, l, e, -, -, -, -, ha, -, hl⟩ :=
    C18_node_list 0 0 0 ((List.replicate 28 (0 : UInt8)).set ((n - 1) / 8) (UInt8.ofNat (2 ^ ((n - 1) % 8)))) [] (by simp)
  refine ⟨_, m, l, e, ha, ?_⟩
  have hpow : 2 ^ ((n - 1) % 8) < 256 := by
    have : 2 ^ ((n - 1) % 8) < 2 ^ 8 := Nat.pow_lt_pow_right (by omega) (by omega)
    simpa using this
  intro k
  rw [hl, MarkedIn, List.getElem?_set]
  constructor
  · rintro ⟨hk, b, hb, ht⟩
    split at hb
    · rename_i hi
      simp only [List.length_replicate] at hb
      rw [if_pos (by omega)] at hb
      cases hb
      rw [toNat_length hpow, Nat.testBit_two_pow] at ht
      have : (n - 1) % 8 = (k - 1) % 8 := by simpa using ht
      omega
    · rw [List.getElem?_replicate] at hb
      split at hb
      · cases hb; simp at ht
      · cases hb
  · rintro rfl
    refine ⟨h1, UInt8.ofNat (2 ^ ((k - 1) % 8)), ?_, ?_⟩
    · rw [if_pos rfl, if_pos (by simp; omega)]
    · rw [toNat_length hpow, Nat.testBit_two_pow]; simp

/-! ## C20 -/

/-- Reading the supported sensor report. -/
theorem sensors_decode (mask : Bytes) (h0 : mask ≠ []) :
    decode (0x31 :: 0x02 :: mask) = (sensorLoop (8 * mask.length) (beNat mask) 1).map
      (fun l => Msg.known 0x3102 [("bitMask", .sensors l)]) := by
  rw [decode_def (d := Reg.SensorMultilevel.SupportedSensorReport) (by decide +kernel) _ _ (by decide)]
  simp only [Reg.SensorMultilevel.SupportedSensorReport]
  rw [show 0x31 :: 0x02 :: mask = [0x31, 0x02] ++ mask from rfl, parse_last (start := 16) rfl (by simp), if_neg h0]
  simp only [readField, deserVal, deserSensors, Reader.remaining, List.cons_append, List.nil_append, Nat.reduceDiv,
    List.drop_succ_cons, List.drop_zero, fromBytesBE_eq]
  cases sensorLoop (8 * mask.length) (beNat mask) 1 with
  | error e => rfl
  | ok l => rfl

/-- **C20.** What a supported sensor report decodes to in general: the mask is read as one big-endian number. Sensor `t` is
in the set exactly if bit `t-1` of that number is set; if the number has a bit of an unknown sensor type, decoding raises ValueError. -/
theorem C20_big_endian_partial (mask : Bytes) (h0 : mask ≠ []) :
    ((∀ t, 1 ≤ t → (beNat mask).testBit (t - 1) = true → KnownSensor t) →
      ∃ m l, decode (0x31 :: 0x02 :: mask) = .ok m ∧ m.attr "bitMask" = some (.sensors l) ∧
        ∀ t, t ∈ l ↔ 1 ≤ t ∧ (beNat mask).testBit (t - 1) = true) ∧
    ((∃ t, 1 ≤ t ∧ (beNat mask).testBit (t - 1) = true ∧ ¬ KnownSensor t) → decode (0x31 :: 0x02 :: mask) = .error .value) := by
  change ((∀ t, 1 ≤ t → (beNat mask).testBit (t - 1) = true → t ∈ sensorTypes) → _) ∧ ((∃ t, 1 ≤ t ∧ (beNat mask).testBit (t - 1) = true ∧ t ∉ sensorTypes) → _)
  have hlt : beNat mask < 2 ^ (8 * mask.length) := by
    have := beNat_lt mask
    rwa [Nat.pow_mul]
  rw [sensors_decode mask h0]
  constructor
  · intro hk
    obtain ⟨l, e, hl⟩ := sensorLoop_ok (8 * mask.length) (beNat mask) 1 hlt (fun j hj => by
      have := hk (1 + j) (by omega) (by rwa [Nat.add_sub_cancel_left])
      exact this)
    rw [e]
    exact ⟨_, l, rfl, rfl, hl⟩
  · rintro ⟨t, h1, h2, h3⟩
    rw [sensorLoop_bad (8 * mask.length) (beNat mask) 1 hlt ⟨t - 1, h2, by rwa [show 1 + (t - 1) = t by omega]⟩]
    rfl

/-- **C20** as wanted: sensor `t` is in the set exactly if its bit is set in its own byte, for every mask that decodes. -/
def C20_statement : Prop :=
  ∀ mask m l, mask ≠ [] → decode (0x31 :: 0x02 :: mask) = .ok m → m.attr "bitMask" = some (.sensors l) → ∀ t, t ∈ l ↔ MarkedIn mask t

/-- **C20** fails for masks of several bytes: a device with sensor type 1 only (mask 01 00) is read as one with sensor type 9. -/
theorem C20_violated : ¬ C20_statement := by
  intro h
  have e : decode [0x31, 0x02, 1, 0] = .ok (.known 0x3102 [("bitMask", .sensors [9])]) := by decide +kernel
  have := (h [1, 0] _ [9] (by simp) e rfl 9).mp (by simp)
  obtain ⟨-, b, hb, ht⟩ := this
  simp at hb
  subst hb
  revert ht
  decide

/-- **C20**, what holds: one byte masks are read correctly. Missing: longer masks, see `C20_violated`. -/
theorem C20_one_byte_partial (b : UInt8) (hk : ∀ t, MarkedIn [b] t → KnownSensor t) :
    ∃ m l, decode [0x31, 0x02, b] = .ok m ∧ m.attr "bitMask" = some (.sensors l) ∧ ∀ t, t ∈ l ↔ MarkedIn [b] t := by
  have hb := UInt8.toNat_lt b
  have he : beNat [b] = b.toNat := by simp [beNat]
  have key : ∀ t, MarkedIn [b] t ↔ 1 ≤ t ∧ (beNat [b]).testBit (t - 1) = true := by
    intro t
    rw [MarkedIn, he]
    constructor
    · rintro ⟨h1, c, hc, ht⟩
      have h8 : (t - 1) / 8 = 0 := by
        rcases Nat.eq_zero_or_pos ((t - 1) / 8) with h | h
        · exact h
        · rw [List.getElem?_eq_none (by simp; omega)] at hc; cases hc
      rw [h8] at hc
      simp at hc
      subst hc
      rw [show (t - 1) % 8 = t - 1 by omega] at ht
      exact ⟨h1, ht⟩
    · rintro ⟨h1, ht⟩
      have h8 : t - 1 < 8 := by
        rcases Nat.lt_or_ge (t - 1) 8 with h | h
        · exact h
        · rw [Nat.testBit_lt_two_pow (Nat.lt_of_lt_of_le hb (show 2 ^ 8 ≤ 2 ^ (t - 1) from Nat.pow_le_pow_right (by omega) h))] at ht
          cases ht
      refine ⟨h1, b, ?_, ?_⟩
      · rw [show (t - 1) / 8 = 0 by omega]; rfl
      · rw [show (t - 1) % 8 = t - 1 by omega]; exact ht
  obtain ⟨m, l, e, ha, hl⟩ := (C20_big_endian_partial [b] (by simp)).1 (fun t h1 ht => hk t ((key t).mpr ⟨h1, ht⟩))
  exact ⟨m, l, e, ha, fun t => by rw [hl, key]⟩

/-- Temperature and luminance. -/
example : ∀ t, MarkedIn [0x05] t → KnownSensor t := by
  rintro t ⟨h1, b, hb, ht⟩
  have h8 : (t - 1) / 8 = 0 := by
    rcases Nat.eq_zero_or_pos ((t - 1) / 8) with h | h
    · exact h
    · rw [List.getElem?_eq_none (by simp; omega)] at hb; cases hb
  have : ∀ t, t < 9 → 1 ≤ t → KnownSensor t ∨ t = 7 ∨ t = 8 := by decide
  rcases this t (by omega) h1 with h | h | h
  · exact h
  · subst h; simp at hb; subst hb; revert ht; decide
  · subst h; simp at hb; subst hb; revert ht; decide

end Props

import Verif.Lemmas.Fields
import Verif.Props.Decoding
import Verif.Props.Values
/-!
# Property theorems C11: the layouts with overlapping names
-/
namespace Props.Clashing
open Spec Model

theorem addBits_zero (D : Bytes) (v n : Nat) (hn : n ≤ 8) (hv : v <<< (8 - n) ≤ 255) :
    (Writer.mk D 0).addBits (v : Int) n = .ok ⟨D ++ [UInt8.ofNat (v <<< (8 - n))], n % 8⟩ := by
  have h1 : ¬ (0 + n > 8) := by omega
  have h2 : ¬ ((v : Int) < 0) := by omega
  have h3 : ¬ ((0 ||| (v <<< (8 - n))) > 255) := by rw [Nat.zero_or]; omega
  simp only [Writer.addBits, if_true, Int.toNat_natCast, Nat.sub_zero]
  rw [if_neg h1, if_neg h2, if_neg h3, Nat.zero_or, Nat.zero_add]

theorem addBits_more (D : Bytes) (b : UInt8) (k v n : Nat) (hk : k ≠ 0) (hn : k + n ≤ 8) (hv : b.toNat ||| v <<< (8 - k - n) ≤ 255) :
    (Writer.mk (D ++ [b]) k).addBits (v : Int) n = .ok ⟨D ++ [UInt8.ofNat (b.toNat ||| v <<< (8 - k - n))], (k + n) % 8⟩ := by
  have h1 : ¬ (k + n > 8) := by omega
  have h2 : ¬ ((v : Int) < 0) := by omega
  have h3 : ¬ ((b.toNat ||| (v <<< (8 - k - n))) > 255) := by omega
  simp only [Writer.addBits, if_neg hk, List.getLast?_append, List.getLast?_singleton, Option.some_or, List.dropLast_concat, if_neg h1, if_neg h2, Int.toNat_natCast, if_neg h3]

theorem addBits_full (D : Bytes) (b : UInt8) (k : Nat) (v : Int) (n : Nat) (hk : k ≠ 0) (hn : 8 < k + n) : (Writer.mk (D ++ [b]) k).addBits v n = .error .value := by
  simp only [Writer.addBits, if_neg hk, List.getLast?_append, List.getLast?_singleton, Option.some_or, if_pos hn]

theorem addByte (D : Bytes) (s : Nat) (b : UInt8) : (Writer.mk D s).addBytes (b.toNat : Int) 1 false = .ok ⟨D ++ [b], 0⟩ := by
  have : toBytesBE (b.toNat : Int) 1 false = .ok [b] := by
    simp only [toBytesBE, Bool.false_eq_true, if_false]
    have := b.toNat_lt
    rw [if_pos (by omega)]
    simp [natToBE]
  simp [Writer.addBytes, this]

theorem compose_def {d : MsgDef} (hd : d ∈ registry) (cc cmd : UInt8) (h1 : d.cc = cc.toNat) (h2 : d.cmd = cmd.toNat) (attrs : Dict String Val) :
    compose (.known d.hid attrs) = composeFields attrs none d.fields ⟨[cc, cmd], 0⟩ >>= fun w => .ok w.data := by
  simp only [compose, composeWith, find_hid d hd, composeDef, h1, h2]
  rw [show Writer.new = ⟨[], 0⟩ from rfl]
  simp only [addByte, bind, Except.bind, List.nil_append, List.singleton_append]
  rfl

theorem put {attrs : Dict String Val} {cmd : Option (Py Bytes)} {f : Field} {fs : List Field} {w : Writer} (v : Val) (hv : (Dict.get? attrs f.name).or (defaultVal f.ty) = some v) (hm : f.ty ≠ .message) (hc : f.compose = none) :
    composeFields attrs cmd (f :: fs) w = serVal v w >>= fun w => composeFields attrs cmd fs w := by
  simp only [composeFields, composeField_eq hm hc, hv]

theorem put_byte {attrs : Dict String Val} {cmd : Option (Py Bytes)} {f : Field} {fs : List Field} {D : Bytes} {s : Nat} (b : UInt8) (hv : (Dict.get? attrs f.name).or (defaultVal f.ty) = some (.num (.uint 1) (b.toNat : Int))) (hm : f.ty ≠ .message)
    (hc : f.compose = none) : composeFields attrs cmd (f :: fs) ⟨D, s⟩ = composeFields attrs cmd fs ⟨D ++ [b], 0⟩ := by
  rw [put _ hv hm hc]
  simp only [serVal, addByte, bind, Except.bind]

theorem put_first {attrs : Dict String Val} {cmd : Option (Py Bytes)} {f : Field} {fs : List Field} {D : Bytes} (t : FT) (v n : Nat) (hv : (Dict.get? attrs f.name).or (defaultVal f.ty) = some (.num t (v : Int))) (hm : f.ty ≠ .message)
    (hc : f.compose = none) (hs : ∀ w : Writer, serVal (.num t (v : Int)) w = w.addBits (v : Int) n) (hn : n ≤ 8) (hle : v <<< (8 - n) ≤ 255) :
    composeFields attrs cmd (f :: fs) ⟨D, 0⟩ = composeFields attrs cmd fs ⟨D ++ [UInt8.ofNat (v <<< (8 - n))], n % 8⟩ := by
  rw [put _ hv hm hc, hs, addBits_zero D v n hn hle]
  rfl

theorem put_more {attrs : Dict String Val} {cmd : Option (Py Bytes)} {f : Field} {fs : List Field} {D : Bytes} {b : UInt8} {k : Nat} (t : FT) (v n : Nat) (hv : (Dict.get? attrs f.name).or (defaultVal f.ty) = some (.num t (v : Int))) (hm : f.ty ≠ .message)
    (hc : f.compose = none) (hs : ∀ w : Writer, serVal (.num t (v : Int)) w = w.addBits (v : Int) n) (hk : k ≠ 0) (hn : k + n ≤ 8) (hle : b.toNat ||| v <<< (8 - k - n) ≤ 255) :
    composeFields attrs cmd (f :: fs) ⟨D ++ [b], k⟩ = composeFields attrs cmd fs ⟨D ++ [UInt8.ofNat (b.toNat ||| v <<< (8 - k - n))], (k + n) % 8⟩ := by
  rw [put _ hv hm hc, hs, addBits_more D b k v n hk hn hle]
  rfl

theorem put_full {attrs : Dict String Val} {cmd : Option (Py Bytes)} {f : Field} {fs : List Field} {D : Bytes} {b : UInt8} {k : Nat} (t : FT) (v n : Nat) (hv : (Dict.get? attrs f.name).or (defaultVal f.ty) = some (.num t (v : Int))) (hm : f.ty ≠ .message)
    (hc : f.compose = none) (hs : ∀ w : Writer, serVal (.num t (v : Int)) w = w.addBits (v : Int) n) (hk : k ≠ 0) (hn : 8 < k + n) :
    composeFields attrs cmd (f :: fs) ⟨D ++ [b], k⟩ = .error .value := by
  rw [put _ hv hm hc, hs, addBits_full D b k v n hk hn]
  rfl

theorem stop {all fs : List Field} {dec : Reader → Py (Msg × Reader)} {data : Bytes} {start : Nat} {acc : Dict String Val} (h : data.length = start / 8) :
    parseFields all dec fs ⟨data, start⟩ acc = .ok (acc, none, ⟨data, start⟩) := by
  cases fs with
  | nil => rfl
  | cons f fs =>
    have : (Reader.mk data start).bytesLeft = 0 := by simp only [Reader.bytesLeft]; omega
    simp [parseFields, this]

theorem missing {attrs : Dict String Val} {f : Field} {fs : List Field} {w : Writer} (hv : Dict.get? attrs f.name = none) (hd : defaultVal f.ty = none) (hm : f.ty ≠ .message) (hc : f.compose = none) :
    composeFields attrs none (f :: fs) w = .error .attribute := by
  simp only [composeFields, composeField_eq hm hc, hv, hd, Option.none_or]
  rfl

theorem missing_later {attrs : Dict String Val} {f : Field} {fs : List Field} (hf : f ∈ fs) (hv : Dict.get? attrs f.name = none) (hd : defaultVal f.ty = none) (hm : f.ty ≠ .message) (hc : f.compose = none) :
    ∀ w : Writer, ∃ e, composeFields attrs none fs w = .error e := by
  induction fs with
  | nil => cases hf
  | cons g fs ih =>
    intro w
    rcases List.mem_cons.mp hf with rfl | hf
    · exact ⟨_, missing hv hd hm hc⟩
    · simp only [composeFields]
      cases composeField attrs none g w with
      | error e => exact ⟨e, rfl⟩
      | ok w => exact ih hf w

theorem final {all : List Field} {f : Field} {dec : Reader → Py (Msg × Reader)} {data : Bytes} {start : Nat} {acc : Dict String Val} (pre tl : Bytes) (hd : data = pre ++ tl)
    (hst : start = 8 * pre.length) (hm : f.ty ≠ .message) :
    parseFields all dec [f] ⟨data, start⟩ acc =
      if tl = [] then .ok (acc, none, ⟨data, start⟩)
      else readField f acc ⟨data, start⟩ >>= fun p =>
        coerce (typeOf all f.name) p.1 >>= fun v => .ok (Dict.set acc f.name v, none, p.2) := by
  subst hd
  exact parse_last hst hm

/-- **C11**, `SensorMultilevel.Get`: the two reserved fields have one name. The second one is written in both places; a packet that is too short does not compose. -/
theorem C11_sensorGet_partial (rest : Bytes) : ∃ m, decode (0x31 :: 0x04 :: rest) = .ok m ∧ compose m = match rest with
    | a :: b :: _ => .ok [0x31, 0x04, a, UInt8.ofNat (b.toNat % 8 * 32 + b.toNat % 32)]
    | _ => .error .attribute := by
  rw [decode_def (d := Reg.SensorMultilevel.Get) (by decide +kernel) _ _ (by decide)]
  simp only [Reg.SensorMultilevel.Get]
  rcases rest with _ | ⟨a, _ | ⟨b, rest⟩⟩
  · rw [stop rfl]
    refine ⟨_, rfl, ?_⟩
    decide +kernel
  · step_u8 a
    rw [stop rfl]
    refine ⟨_, rfl, ?_⟩
    change compose (.known Reg.SensorMultilevel.Get.hid _) = _
    rw [compose_def (by decide +kernel) 0x31 0x04 (by decide) (by decide)]
    simp only [Reg.SensorMultilevel.Get]
    rw [put_byte a rfl (by decide) rfl, put_first (.reserved 3) 0 3 rfl (by decide) rfl (fun _ => rfl) (by decide) (by decide), missing rfl rfl (by decide) rfl]
    rfl
  step_u8 a
  step_bits 3 b
  step_bits 2 b
  step_bits 3 b
  refine ⟨_, rfl, ?_⟩
  change compose (.known Reg.SensorMultilevel.Get.hid _) = _
  rw [compose_def (by decide +kernel) 0x31 0x04 (by decide) (by decide)]
  simp only [Reg.SensorMultilevel.Get]
  have hb := b.toNat_lt
  generalize b.toNat = x at hb
  rw [put_byte a rfl (by decide) rfl, put_first (.reserved 3) (x / 1 % 8) 3 rfl (by decide) rfl (fun _ => rfl) (by decide) (by revert x; decide +kernel),
    put_more (.bits 2) (x / 8 % 4) 2 rfl (by decide) rfl (fun _ => rfl) (by decide) (by decide) (by revert x; decide +kernel),
    put_more (.reserved 3) (x / 1 % 8) 3 rfl (by decide) rfl (fun _ => rfl) (by decide) (by decide) (by revert x; decide +kernel)]
  simp only [composeFields, bind, Except.bind, List.cons_append, List.nil_append, Except.ok.injEq, List.cons.injEq, true_and, and_true]
  revert x
  decide +kernel

example : (decode [0x31, 0x04, 5, 0x28]).bind compose = .ok [0x31, 0x04, 5, 0x08] := by decide +kernel

/-- **C11**, `ZipInvNodeSolicitation`: the two reserved fields have one name and different widths. No packet composes again. -/
theorem C11_solicitation_partial (rest : Bytes) : ∃ m, decode (0x58 :: 0x04 :: rest) = .ok m ∧ compose m = .error (if rest = [] then .attribute else .value) := by
  rw [decode_def (d := Reg.ZipND.ZipInvNodeSolicitation) (by decide +kernel) _ _ (by decide)]
  simp only [Reg.ZipND.ZipInvNodeSolicitation]
  rcases rest with _ | ⟨b, rest⟩
  · rw [stop rfl]
    refine ⟨_, rfl, ?_⟩
    decide +kernel
  step_bits 4 b
  step_bits 1 b
  step_bits 3 b
  have key : ∀ A : Dict String Val, Dict.get? A "-" = some (.num (.reserved 4) ((b.toNat / 1 % 8 : Nat) : Int)) → Dict.get? A "local" = some (.num .flag ((b.toNat / 8 % 2 % 2 : Nat) : Int)) →
      compose (.known Reg.ZipND.ZipInvNodeSolicitation.hid A) = .error .value := by
    intro A h1 h2
    rw [compose_def (by decide +kernel) 0x58 0x04 (by decide) (by decide)]
    simp only [Reg.ZipND.ZipInvNodeSolicitation]
    have hb := b.toNat_lt
    generalize b.toNat = x at hb h1 h2
    rw [put_first (.reserved 4) (x / 1 % 8) 4 (by rw [h1]; rfl) (by decide) rfl (fun _ => rfl) (by decide) (by clear h1 h2; revert x; decide +kernel),
      put_more .flag (x / 8 % 2 % 2) 1 (by rw [h2]; rfl) (by decide) rfl (fun _ => rfl) (by decide) (by decide) (by clear h1 h2; revert x; decide +kernel),
      put_full (.reserved 4) (x / 1 % 8) 4 (by rw [h1]; rfl) (by decide) rfl (fun _ => rfl) (by decide) (by decide)]
    rfl
  rcases rest with _ | ⟨c, rest⟩
  · rw [stop rfl]
    exact ⟨_, rfl, key _ rfl rfl⟩
  · step_u8 c
    exact ⟨_, rfl, key _ rfl rfl⟩

example : (decode [0x58, 0x04, 0, 5]).bind compose = .error .value := by decide +kernel

/-- **C11**, `MultiChannelEndPointReport`: the three reserved fields have one name and different widths. No packet composes again. -/
theorem C11_endPoints_partial (rest : Bytes) : ∃ m, decode (0x52 :: 0x06 :: rest) = .ok m ∧ compose m = .error (if rest.length < 4 then .attribute else .value) := by
  rw [decode_def (d := Reg.NetworkManagementProxy.MultiChannelEndPointReport) (by decide +kernel) _ _ (by decide)]
  simp only [Reg.NetworkManagementProxy.MultiChannelEndPointReport]
  rcases rest with _ | ⟨a, _ | ⟨n, _ | ⟨r, _ | ⟨i, rest⟩⟩⟩⟩
  · rw [stop rfl]
    refine ⟨_, rfl, ?_⟩
    decide +kernel
  · step_u8 a
    rw [stop rfl]
    refine ⟨_, rfl, ?_⟩
    change compose (.known Reg.NetworkManagementProxy.MultiChannelEndPointReport.hid _) = _
    rw [compose_def (by decide +kernel) 0x52 0x06 (by decide) (by decide)]
    simp only [Reg.NetworkManagementProxy.MultiChannelEndPointReport]
    rw [put_byte a rfl (by decide) rfl, missing rfl rfl (by decide) rfl]
    rfl
  · step_u8 a
    step_u8 n
    rw [stop rfl]
    refine ⟨_, rfl, ?_⟩
    change compose (.known Reg.NetworkManagementProxy.MultiChannelEndPointReport.hid _) = _
    rw [compose_def (by decide +kernel) 0x52 0x06 (by decide) (by decide)]
    simp only [Reg.NetworkManagementProxy.MultiChannelEndPointReport]
    rw [put_byte a rfl (by decide) rfl, put_byte n rfl (by decide) rfl, put_first (.reserved 8) 0 8 rfl (by decide) rfl (fun _ => rfl) (by decide) (by decide),
      put_first (.reserved 1) 0 1 rfl (by decide) rfl (fun _ => rfl) (by decide) (by decide), missing rfl rfl (by decide) rfl]
    rfl
  · step_u8 a
    step_u8 n
    step_bits 8 r
    rw [stop rfl]
    refine ⟨_, rfl, ?_⟩
    change compose (.known Reg.NetworkManagementProxy.MultiChannelEndPointReport.hid _) = _
    rw [compose_def (by decide +kernel) 0x52 0x06 (by decide) (by decide)]
    simp only [Reg.NetworkManagementProxy.MultiChannelEndPointReport]
    have hb := r.toNat_lt
    generalize r.toNat = x at hb
    rw [put_byte a rfl (by decide) rfl, put_byte n rfl (by decide) rfl, put_first (.reserved 8) (x / 1 % 256) 8 rfl (by decide) rfl (fun _ => rfl) (by decide) (by revert x; decide +kernel),
      put_first (.reserved 8) (x / 1 % 256) 8 rfl (by decide) rfl (fun _ => rfl) (by decide) (by revert x; decide +kernel), missing rfl rfl (by decide) rfl]
    rfl
  have key : ∀ (A : Dict String Val) (x : Nat), x < 256 → Dict.get? A "seqNo" = some (.num (.uint 1) (a.toNat : Int)) → Dict.get? A "nodeID" = some (.num (.uint 1) (n.toNat : Int)) →
      Dict.get? A "-" = some (.num (.reserved 8) (x : Int)) → Dict.get? A "individualEndPoints" = some (.num (.ubits 7) ((i.toNat / 1 % 128 : Nat) : Int)) →
      compose (.known Reg.NetworkManagementProxy.MultiChannelEndPointReport.hid A) = .error .value := by
    intro A x hx h1 h2 h3 h4
    rw [compose_def (by decide +kernel) 0x52 0x06 (by decide) (by decide)]
    simp only [Reg.NetworkManagementProxy.MultiChannelEndPointReport]
    have hb := i.toNat_lt
    generalize i.toNat = y at hb h4
    rw [put_byte a (by rw [h1]; rfl) (by decide) rfl, put_byte n (by rw [h2]; rfl) (by decide) rfl,
      put_first (.reserved 8) x 8 (by rw [h3]; rfl) (by decide) rfl (fun _ => rfl) (by decide) (by simpa using Nat.le_of_lt_succ hx),
      put_first (.reserved 8) x 8 (by rw [h3]; rfl) (by decide) rfl (fun _ => rfl) (by decide) (by simpa using Nat.le_of_lt_succ hx),
      put_first (.ubits 7) (y / 1 % 128) 7 (by rw [h4]; rfl) (by decide) rfl (fun _ => rfl) (by decide) (by clear h4; revert y; decide +kernel),
      put_full (.reserved 8) x 8 (by rw [h3]; rfl) (by decide) rfl (fun _ => rfl) (by decide) (by decide)]
    rfl
  rw [if_neg (by simp)]
  step_u8 a
  step_u8 n
  step_bits 8 r
  step_bits 1 i
  step_bits 7 i
  rcases rest with _ | ⟨g, rest⟩
  · rw [stop rfl]
    exact ⟨_, rfl, key _ _ (by have := i.toNat_lt; omega) rfl rfl rfl rfl⟩
  · step_bits 1 g
    step_bits 7 g
    exact ⟨_, rfl, key _ _ (by have := g.toNat_lt; omega) rfl rfl rfl rfl⟩

example : (decode [0x52, 0x06, 1, 5, 0, 2]).bind compose = .error .value := by decide +kernel

/-- **C11**, `NodeInfoCachedReport`: the low seven bits of the third and the fourth byte have one name. The later ones are written in both places, everything else is kept; a packet that is too short does not compose. -/
theorem C11_cachedReport_partial (rest : Bytes) : ∃ m, decode (0x52 :: 0x04 :: rest) = .ok m ∧ match rest with
    | a :: c :: d :: e :: f :: g :: h :: i :: tl => compose m = .ok (0x52 :: 0x04 :: a :: c :: UInt8.ofNat (d.toNat / 128 * 128 + e.toNat % 128) :: e :: f :: g :: h :: i :: tl)
    | _ => ∃ err, compose m = .error err := by
  have short : ∀ A : Dict String Val, Dict.get? A "specificDeviceClass" = none → ∃ err, compose (.known Reg.NetworkManagementProxy.NodeInfoCachedReport.hid A) = .error err := by
    intro A h
    rw [compose_def (by decide +kernel) 0x52 0x04 (by decide) (by decide)]
    obtain ⟨err, he⟩ := missing_later (attrs := A) (fs := Reg.NetworkManagementProxy.NodeInfoCachedReport.fields) (f := ⟨"specificDeviceClass", .uint 1, none, none⟩) (by decide) h rfl (by decide) rfl ⟨[0x52, 0x04], 0⟩
    exact ⟨err, by rw [he]; rfl⟩
  rw [decode_def (d := Reg.NetworkManagementProxy.NodeInfoCachedReport) (by decide +kernel) _ _ (by decide)]
  simp only [Reg.NetworkManagementProxy.NodeInfoCachedReport] at short ⊢
  rcases rest with _ | ⟨a, _ | ⟨c, _ | ⟨d, _ | ⟨e, _ | ⟨f, _ | ⟨g, _ | ⟨h, _ | ⟨i, tl⟩⟩⟩⟩⟩⟩⟩⟩
  · rw [stop rfl]
    exact ⟨_, rfl, short _ rfl⟩
  · step_u8 a
    rw [stop rfl]
    exact ⟨_, rfl, short _ rfl⟩
  · step_u8 a
    step_bits 4 c
    step_bits 4 c
    rw [stop rfl]
    exact ⟨_, rfl, short _ rfl⟩
  · step_u8 a
    step_bits 4 c
    step_bits 4 c
    step_bits 1 d
    step_bits 7 d
    rw [stop rfl]
    exact ⟨_, rfl, short _ rfl⟩
  · step_u8 a
    step_bits 4 c
    step_bits 4 c
    step_bits 1 d
    step_bits 7 d
    step_bits 1 e
    step_bits 7 e
    rw [stop rfl]
    exact ⟨_, rfl, short _ rfl⟩
  · step_u8 a
    step_bits 4 c
    step_bits 4 c
    step_bits 1 d
    step_bits 7 d
    step_bits 1 e
    step_bits 7 e
    step_bits 8 f
    rw [stop rfl]
    exact ⟨_, rfl, short _ rfl⟩
  · step_u8 a
    step_bits 4 c
    step_bits 4 c
    step_bits 1 d
    step_bits 7 d
    step_bits 1 e
    step_bits 7 e
    step_bits 8 f
    step_u8 g
    rw [stop rfl]
    exact ⟨_, rfl, short _ rfl⟩
  · step_u8 a
    step_bits 4 c
    step_bits 4 c
    step_bits 1 d
    step_bits 7 d
    step_bits 1 e
    step_bits 7 e
    step_bits 8 f
    step_u8 g
    step_u8 h
    rw [stop rfl]
    exact ⟨_, rfl, short _ rfl⟩
  · have key : ∀ A : Dict String Val, Dict.get? A "seqNo" = some (.num (.uint 1) (a.toNat : Int)) → Dict.get? A "status" = some (.num (.ubits 4) ((c.toNat / 16 % 16 : Nat) : Int)) →
        Dict.get? A "age" = some (.num (.ubits 4) ((c.toNat / 1 % 16 : Nat) : Int)) → Dict.get? A "listening" = some (.num .flag ((d.toNat / 128 % 2 % 2 : Nat) : Int)) →
        Dict.get? A "zwaveProtocolSpecific" = some (.num (.reserved 7) ((e.toNat / 1 % 128 : Nat) : Int)) → Dict.get? A "optFunc" = some (.num .flag ((e.toNat / 128 % 2 % 2 : Nat) : Int)) →
        Dict.get? A "-" = some (.num (.reserved 8) ((f.toNat / 1 % 256 : Nat) : Int)) → Dict.get? A "basicDeviceClass" = some (.num (.uint 1) (g.toNat : Int)) →
        Dict.get? A "genericDeviceClass" = some (.num (.uint 1) (h.toNat : Int)) → Dict.get? A "specificDeviceClass" = some (.num (.uint 1) (i.toNat : Int)) →
        (Dict.get? A "commandClass").or (some (.bytes [])) = some (.bytes tl) →
        compose (.known (0x52 * 256 + 0x04) A) = .ok (0x52 :: 0x04 :: a :: c :: UInt8.ofNat (d.toNat / 128 * 128 + e.toNat % 128) :: e :: f :: g :: h :: i :: tl) := by
      intro A h1 h2 h3 h4 h5 h6 h7 h8 h9 h10 h11
      change compose (.known Reg.NetworkManagementProxy.NodeInfoCachedReport.hid _) = _
      rw [compose_def (by decide +kernel) 0x52 0x04 (by decide) (by decide)]
      simp only [Reg.NetworkManagementProxy.NodeInfoCachedReport]
      have r4 : ∀ c : UInt8, UInt8.ofNat ((UInt8.ofNat ((c.toNat / 16 % 16) <<< (8 - 4))).toNat ||| (c.toNat / 1 % 16) <<< (8 - 4 - 4)) = c := by
        intro c; apply UInt8.toNat_inj.mp; have := c.toNat_lt; generalize c.toNat = x at this; revert x; decide +kernel
      have r1 : ∀ c : UInt8, UInt8.ofNat ((UInt8.ofNat ((c.toNat / 128 % 2 % 2) <<< (8 - 1))).toNat ||| (c.toNat / 1 % 128) <<< (8 - 1 - 7)) = c := by
        intro c; apply UInt8.toNat_inj.mp; have := c.toNat_lt; generalize c.toNat = x at this; revert x; decide +kernel
      have r8 : UInt8.ofNat ((f.toNat / 1 % 256) <<< (8 - 8)) = f := by
        apply UInt8.toNat_inj.mp; have := f.toNat_lt; generalize f.toNat = x at this; revert x; decide +kernel
      have rm : UInt8.ofNat ((UInt8.ofNat ((d.toNat / 128 % 2 % 2) <<< (8 - 1))).toNat ||| (e.toNat / 1 % 128) <<< (8 - 1 - 7)) = UInt8.ofNat (d.toNat / 128 * 128 + e.toNat % 128) := by
        congr 1
        have hd : (UInt8.ofNat ((d.toNat / 128 % 2 % 2) <<< (8 - 1))).toNat = 2 ^ 7 * (d.toNat / 128) := by
          have := d.toNat_lt; generalize d.toNat = x at this; revert x; decide +kernel
        rw [hd, show (e.toNat / 1 % 128) <<< (8 - 1 - 7) = e.toNat % 128 from by simp, ← Nat.two_pow_add_eq_or_of_lt (Nat.mod_lt _ (by decide)), Nat.mul_comm]
      have le7 : ∀ (y : Nat) (c : UInt8), y < 2 → (UInt8.ofNat (y <<< (8 - 1))).toNat ||| (c.toNat / 1 % 128) <<< (8 - 1 - 7) ≤ 255 := by
        intro y c _; exact Nat.le_of_lt_succ (Nat.or_lt_two_pow (n := 8) (UInt8.toNat_lt _) (by simp; omega))
      have le4 : (UInt8.ofNat ((c.toNat / 16 % 16) <<< (8 - 4))).toNat ||| (c.toNat / 1 % 16) <<< (8 - 4 - 4) ≤ 255 :=
        Nat.le_of_lt_succ (Nat.or_lt_two_pow (n := 8) (UInt8.toNat_lt _) (by simp; omega))
      have l1 : ∀ x : Nat, (x / 128 % 2 % 2) <<< (8 - 1) ≤ 255 := by intro x; rw [Nat.shiftLeft_eq]; omega
      have l4 : (c.toNat / 16 % 16) <<< (8 - 4) ≤ 255 := by rw [Nat.shiftLeft_eq]; omega
      have l8 : (f.toNat / 1 % 256) <<< (8 - 8) ≤ 255 := by rw [Nat.shiftLeft_eq]; omega
      rw [put_byte a (by rw [h1]; rfl) (by decide) rfl,
        put_first (.ubits 4) _ 4 (by rw [h2]; rfl) (by decide) rfl (fun _ => rfl) (by decide) l4,
        put_more (.ubits 4) _ 4 (by rw [h3]; rfl) (by decide) rfl (fun _ => rfl) (by decide) (by decide) le4, r4,
        put_first .flag _ 1 (by rw [h4]; rfl) (by decide) rfl (fun _ => rfl) (by decide) (l1 _),
        put_more (.reserved 7) _ 7 (by rw [h5]; rfl) (by decide) rfl (fun _ => rfl) (by decide) (by decide) (le7 _ _ (Nat.mod_lt _ (by decide))), rm,
        put_first .flag _ 1 (by rw [h6]; rfl) (by decide) rfl (fun _ => rfl) (by decide) (l1 _),
        put_more (.reserved 7) _ 7 (by rw [h5]; rfl) (by decide) rfl (fun _ => rfl) (by decide) (by decide) (le7 _ _ (Nat.mod_lt _ (by decide))), r1,
        put_first (.reserved 8) _ 8 (by rw [h7]; rfl) (by decide) rfl (fun _ => rfl) (by decide) l8, r8,
        put_byte g (by rw [h8]; rfl) (by decide) rfl, put_byte h (by rw [h9]; rfl) (by decide) rfl, put_byte i (by rw [h10]; rfl) (by decide) rfl,
        put (.bytes tl) h11 (by decide) rfl]
      simp [serVal, Writer.extend, composeFields, bind, Except.bind]
    step_u8 a
    step_bits 4 c
    step_bits 4 c
    step_bits 1 d
    step_bits 7 d
    step_bits 1 e
    step_bits 7 e
    step_bits 8 f
    step_u8 g
    step_u8 h
    step_u8 i
    rw [final (data := 0x52 :: 0x04 :: a :: c :: d :: e :: f :: g :: h :: i :: tl) (start := 80) [0x52, 0x04, a, c, d, e, f, g, h, i] tl rfl rfl (by simp)]
    by_cases ht : tl = []
    · rw [if_pos ht]
      exact ⟨_, rfl, key _ rfl rfl rfl rfl rfl rfl rfl rfl rfl rfl (by rw [ht]; rfl)⟩
    · rw [if_neg ht]
      simp only [readField, deserVal, Reader.remaining, bind, Except.bind, coerce]
      exact ⟨_, rfl, key _ rfl rfl rfl rfl rfl rfl rfl rfl rfl rfl rfl⟩

example : (decode [0x52, 0x04, 1, 0x1f, 0xd3, 0x9c, 0, 4, 16, 1, 0x25]).bind compose = .ok [0x52, 0x04, 1, 0x1f, 0x9c, 0x9c, 0, 4, 16, 1, 0x25] := by decide +kernel

/-- **C11**, `Mailbox.NodeFailing`: one byte is kept, the last one of sixteen and otherwise the first one. -/
theorem C11_nodeFailing_partial (rest : Bytes) : ∃ m, decode (0x69 :: 0x06 :: rest) = .ok m ∧ compose m = match rest with
    | [] => .error .attribute
    | a :: tl => .ok [0x69, 0x06, if tl.length = 15 then tl.getLastD a else a] := by
  rw [decode_def (d := Reg.Mailbox.NodeFailing) (by decide +kernel) _ _ (by decide)]
  simp only [Reg.Mailbox.NodeFailing]
  rcases rest with _ | ⟨a, tl⟩
  · rw [stop rfl]
    refine ⟨_, rfl, ?_⟩
    decide +kernel
  have key : ∀ b : UInt8, compose (.known (0x69 * 256 + 0x06) [("queueHandle", .num (.uint 1) (b.toNat : Int))]) = .ok [0x69, 0x06, b] := by
    intro b
    change compose (.known Reg.Mailbox.NodeFailing.hid _) = _
    rw [compose_def (by decide +kernel) 0x69 0x06 (by decide) (by decide)]
    simp only [Reg.Mailbox.NodeFailing]
    rw [put_byte b rfl (by decide) rfl]
    rfl
  rw [final (data := 0x69 :: 0x06 :: a :: tl) (start := 16) [0x69, 0x06] (a :: tl) rfl rfl (by simp), if_neg (by simp)]
  have hr : ∀ r, ∃ r', readField ⟨"queueHandle", .uint 1, some .nodeFailing, r⟩ [] ⟨0x69 :: 0x06 :: a :: tl, 16⟩ =
      .ok (.num (.uint 1) ((if tl.length = 15 then tl.getLastD a else a).toNat : Int), r') := by
    intro r
    have hl : (Reader.mk (0x69 :: 0x06 :: a :: tl) 16).bytesLeft = (tl.length : Int) + 1 := by simp only [Reader.bytesLeft, List.length_cons]; omega
    simp only [readField, runHook, hl]
    by_cases h : tl.length = 15
    · rw [if_pos (by omega), if_pos h, Reader.byte_ok (by simp only [Reader.advance, List.length_cons]; omega)]
      refine ⟨⟨0x69 :: 0x06 :: a :: tl, 144⟩, ?_⟩
      simp only [bind, Except.bind, pure, Except.pure, Reader.advance]
      rcases List.eq_nil_or_concat tl with h' | ⟨l, z, rfl⟩
      · rw [h'] at h; cases h
      · have hz : l.length = 14 := by simpa using h
        simp [hz]
    · rw [if_neg (by omega), if_neg h, Reader.byte_ok (by simp only [List.length_cons]; omega)]
      exact ⟨⟨0x69 :: 0x06 :: a :: tl, 24⟩, by simp [bind, Except.bind, pure, Except.pure, Reader.advance]⟩
  obtain ⟨r', hr⟩ := hr none
  rw [hr]
  exact ⟨_, rfl, key _⟩

example : (decode [0x69, 0x06, 5]).bind compose = .ok [0x69, 0x06, 5] := by decide +kernel
example : (decode [0x69, 0x06, 0, 0, 0, 0, 0, 0, 0, 0, 0, 0, 0, 0, 0, 0, 0, 7]).bind compose = .ok [0x69, 0x06, 7] := by decide +kernel

/-! ## Association targets -/

theorem targets_read (p r : Bytes) (hp : (0 : UInt8) ∉ p) : deserNodes (p ++ 0 :: r) = deserPairs r >>= fun l => .ok (p.map (fun n => (n.toNat, none)) ++ l) := by
  induction p with
  | nil =>
    simp only [List.nil_append, deserNodes, if_true, List.map_nil]
    cases deserPairs r <;> rfl
  | cons n p ih =>
    have h0 : n ≠ 0 := fun h => hp (by rw [h]; exact List.mem_cons_self)
    simp only [List.cons_append, deserNodes, if_neg h0, ih (fun h => hp (List.mem_cons_of_mem _ h))]
    cases deserPairs r <;> rfl

theorem pairs_odd : ∀ r : Bytes, r.length % 2 = 1 → deserPairs r = .error .index
  | [], h => by simp at h
  | [_], _ => rfl
  | a :: b :: r, h => by
    simp only [deserPairs, pairs_odd r (by simp at h ⊢; omega)]
    rfl

theorem plain_written (p : Bytes) : serNodes (p.map (fun n => (n.toNat, none))) = .ok p := by
  have h1 : serNodesPlain (p.map (fun n => (n.toNat, none))) = .ok p := by
    induction p with
    | nil => rfl
    | cons n p ih =>
      have : asByte n.toNat = .ok n := by rw [asByte, if_pos n.toNat_lt, UInt8.ofNat_toNat]
      simp only [List.map_cons, serNodesPlain, this, ih, bind, Except.bind, pure, Except.pure]
  have h2 : (p.map (fun n => (n.toNat, (none : Option Nat)))).any (fun q => q.2.isSome) = false := by simp
  simp only [serNodes, h1, h2, bind, Except.bind, pure, Except.pure]
  rfl

/-- The number of bytes in front of the targets. -/
def targetMessages : List (UInt8 × UInt8 × Nat) := [(0x85, 0x01, 1), (0x85, 0x03, 3), (0x8E, 0x01, 1), (0x8E, 0x03, 3)]

theorem targets_message {d : MsgDef} (hd : d ∈ registry) (cc cmd : UInt8) (h1 : d.cc = cc.toNat) (h2 : d.cmd = cmd.toNat) (g t : Bytes)
    (hg : d.fields = [⟨"groupingIdentifier", .uint 1, none, none⟩, ⟨"nodes", .nodes, none, none⟩] ∧ g.length = 1 ∨
      d.fields = [⟨"groupingIdentifier", .uint 1, none, none⟩, ⟨"maxNodesSupported", .uint 1, none, none⟩, ⟨"reportsToFollow", .uint 1, none, none⟩, ⟨"nodes", .nodes, none, none⟩] ∧ g.length = 3) (ht : t ≠ []) :
    (∀ e, deserNodes t = .error e → decode (cc :: cmd :: (g ++ t)) = .error e) ∧
    ∀ l b, deserNodes t = .ok l → serNodes l = .ok b → ∃ m, decode (cc :: cmd :: (g ++ t)) = .ok m ∧ compose m = .ok (cc :: cmd :: (g ++ b)) := by
  have hr : ∀ (pre : Bytes) acc, ∃ r', readField ⟨"nodes", .nodes, none, none⟩ acc ⟨pre ++ t, 8 * pre.length⟩ = deserNodes t >>= fun l => .ok (.nodes l, r') := by
    intro pre acc
    refine ⟨(Reader.mk (pre ++ t) (8 * pre.length)).remaining.2, ?_⟩
    simp only [readField, deserVal, Reader.remaining]
    rw [show 8 * pre.length / 8 = pre.length by omega, List.drop_left]
    rfl
  have hid : cc.toNat * 256 + cmd.toNat = d.hid := by have := cmd.toNat_lt; simp only [MsgDef.hid, h1, h2]; omega
  rcases hg with ⟨hf, hg⟩ | ⟨hf, hg⟩
  · obtain ⟨a, rfl⟩ : ∃ a, g = [a] := by
      match g, hg with
      | [a], _ => exact ⟨a, rfl⟩
    rw [decode_def hd _ _ hid]
    simp only [hf, List.cons_append, List.nil_append]
    step_u8 a
    rw [final (data := cc :: cmd :: a :: t) (start := 24) [cc, cmd, a] t rfl rfl (by simp), if_neg ht]
    obtain ⟨r', hr⟩ := hr [cc, cmd, a] [("groupingIdentifier", .num (.uint 1) (a.toNat : Int))]
    simp only [List.cons_append, List.nil_append, List.length_cons, List.length_nil, Nat.reduceAdd, Nat.reduceMul] at hr
    rw [hr]
    refine ⟨fun e he => by rw [he]; rfl, fun l b hl hb => ?_⟩
    rw [hl]
    refine ⟨_, rfl, ?_⟩
    rw [compose_def hd cc cmd h1 h2, hf]
    rw [put_byte a rfl (by decide) rfl, put (.nodes l) rfl (by decide) rfl]
    simp [serVal, hb, bind, Except.bind, pure, Except.pure, composeFields, Writer.extend]
  · obtain ⟨a, b, c, rfl⟩ : ∃ a b c, g = [a, b, c] := by
      match g, hg with
      | [a, b, c], _ => exact ⟨a, b, c, rfl⟩
    rw [decode_def hd _ _ hid]
    simp only [hf, List.cons_append, List.nil_append]
    step_u8 a
    step_u8 b
    step_u8 c
    rw [final (data := cc :: cmd :: a :: b :: c :: t) (start := 40) [cc, cmd, a, b, c] t rfl rfl (by simp), if_neg ht]
    obtain ⟨r', hr⟩ := hr [cc, cmd, a, b, c] [("groupingIdentifier", .num (.uint 1) (a.toNat : Int)), ("maxNodesSupported", .num (.uint 1) (b.toNat : Int)), ("reportsToFollow", .num (.uint 1) (c.toNat : Int))]
    simp only [List.cons_append, List.nil_append, List.length_cons, List.length_nil, Nat.reduceAdd, Nat.reduceMul] at hr
    rw [hr]
    refine ⟨fun e he => by rw [he]; rfl, fun l b' hl hb => ?_⟩
    rw [hl]
    refine ⟨_, rfl, ?_⟩
    rw [compose_def hd cc cmd h1 h2, hf]
    rw [put_byte a rfl (by decide) rfl, put_byte b rfl (by decide) rfl, put_byte c rfl (by decide) rfl, put (.nodes l) rfl (by decide) rfl]
    simp [serVal, hb, bind, Except.bind, pure, Except.pure, composeFields, Writer.extend]

/-- **C11**, association targets: a marker with nothing behind it is dropped, an odd number of bytes behind it is refused. -/
theorem C11_targets_partial : ∀ q ∈ targetMessages, ∀ g p r : Bytes, g.length = q.2.2 → (0 : UInt8) ∉ p →
    (r.length % 2 = 1 → decode (q.1 :: q.2.1 :: (g ++ (p ++ 0 :: r))) = .error .index) ∧
    (r = [] → ∃ m, decode (q.1 :: q.2.1 :: (g ++ (p ++ 0 :: r))) = .ok m ∧ compose m = .ok (q.1 :: q.2.1 :: (g ++ p))) := by
  intro q hq g p r hg hp
  have hall : ∀ q ∈ targetMessages, ∃ d ∈ registry, d.cc = q.1.toNat ∧ d.cmd = q.2.1.toNat ∧
      (d.fields = [⟨"groupingIdentifier", .uint 1, none, none⟩, ⟨"nodes", .nodes, none, none⟩] ∧ q.2.2 = 1 ∨
      d.fields = [⟨"groupingIdentifier", .uint 1, none, none⟩, ⟨"maxNodesSupported", .uint 1, none, none⟩, ⟨"reportsToFollow", .uint 1, none, none⟩, ⟨"nodes", .nodes, none, none⟩] ∧ q.2.2 = 3) := by
    decide +kernel
  obtain ⟨d, hd, h1, h2, h3⟩ := hall q hq
  rw [← hg] at h3
  obtain ⟨k1, k2⟩ := targets_message hd q.1 q.2.1 h1 h2 g (p ++ 0 :: r) h3 (by simp)
  refine ⟨fun hr => k1 _ ?_, ?_⟩
  · rw [targets_read p r hp, pairs_odd r hr]; rfl
  · rintro rfl
    refine k2 (p.map (fun n => (n.toNat, none))) p ?_ (plain_written p)
    rw [targets_read p [] hp]
    simp [deserPairs, bind, Except.bind]

example : (decode [0x85, 0x03, 1, 5, 0, 7, 9, 0]).bind compose = .ok [0x85, 0x03, 1, 5, 0, 7, 9] := by decide +kernel
example : decode [0x85, 0x01, 1, 7, 0, 9] = .error .index := by decide +kernel

/-! ## Messages that hold another message -/

theorem compose_wrap {d : MsgDef} (hd : d ∈ registry) (cc cmd : UInt8) (h1 : d.cc = cc.toNat) (h2 : d.cmd = cmd.toNat) (attrs : Dict String Val) (c : Msg) :
    compose (.wrap d.hid attrs c) = composeFields attrs (some (compose c)) d.fields ⟨[cc, cmd], 0⟩ >>= fun w => .ok w.data := by
  simp only [compose, composeWith, find_hid d hd, composeDef, h1, h2]
  rw [show Writer.new = ⟨[], 0⟩ from rfl]
  simp only [addByte, bind, Except.bind, List.nil_append, List.singleton_append]
  rfl

theorem put_command {attrs : Dict String Val} {f : Field} {w : Writer} (x : Py Bytes) (hm : f.ty = .message) :
    (composeFields attrs (some x) [f] w >>= fun w => (.ok w.data : Py Bytes)) = x >>= fun b => .ok (w.data ++ b) := by
  simp only [composeFields, composeField, if_pos hm]
  cases x <;> rfl

theorem no_command {attrs : Dict String Val} {f : Field} {fs : List Field} (hf : f ∈ fs) (hm : f.ty = .message) : ∀ w : Writer, ∃ e, composeFields attrs none fs w = .error e := by
  induction fs with
  | nil => cases hf
  | cons g fs ih =>
    intro w
    rcases List.mem_cons.mp hf with rfl | hf
    · simp only [composeFields, composeField, if_pos hm]
      exact ⟨_, rfl⟩
    · simp only [composeFields]
      cases composeField attrs none g w with
      | error e => exact ⟨e, rfl⟩
      | ok w => exact ih hf w

/-- **C11**, `Supervision.Get`: the length of the command and what follows the command are not written again. -/
theorem C11_supervision_partial (b : UInt8) (cb tl : Bytes) (h : cb.length < 256) (m : Msg) (hm : decode (0x6C :: 0x01 :: b :: UInt8.ofNat cb.length :: (cb ++ tl)) = .ok m) :
    ∃ c, decode cb = .ok c ∧ compose m = (compose c).map (fun x => 0x6C :: 0x01 :: b :: x) := by
  rw [Props.C24_decode_partial b cb tl h] at hm
  obtain ⟨c, hc, hm⟩ := bind_ok hm
  cases hm
  refine ⟨c, hc, ?_⟩
  change compose (.wrap Reg.Supervision.Get.hid _ _) = _
  rw [compose_wrap (by decide +kernel) 0x6C 0x01 (by decide) (by decide)]
  simp only [Reg.Supervision.Get]
  have hr : UInt8.ofNat ((UInt8.ofNat ((UInt8.ofNat ((b.toNat / 128 % 2) <<< (8 - 1))).toNat ||| (b.toNat / 64 % 2) <<< (8 - 1 - 1))).toNat ||| (b.toNat % 64) <<< (8 - 2 - 6)) = b := by
    apply UInt8.toNat_inj.mp; have := b.toNat_lt; generalize b.toNat = x at this; revert x; decide +kernel
  have hb := b.toNat_lt
  rw [put_first .flag (b.toNat / 128 % 2) 1 rfl (by decide) rfl (fun _ => rfl) (by decide) (by generalize b.toNat = x at hb; revert x; decide +kernel),
    put_more (.reserved 1) (b.toNat / 64 % 2) 1 rfl (by decide) rfl (fun _ => rfl) (by decide) (by decide) (by generalize b.toNat = x at hb; revert x; decide +kernel),
    put_more (.bits 6) (b.toNat % 64) 6 rfl (by decide) rfl (fun _ => rfl) (by decide) (by decide) (by generalize b.toNat = x at hb; revert x; decide +kernel)]
  simp only [Nat.reduceMod, Nat.reduceAdd] at hr ⊢
  rw [hr, put_command _ rfl]
  cases compose c <;> rfl

/-- The supervised "switch binary get" of `C24_violated`. -/
example : (decode [0x6C, 0x01, 0x85, 0x02, 0x25, 0x02, 0xff]).bind compose = .ok [0x6C, 0x01, 0x85, 0x25, 0x02] := by decide +kernel

/-- **C11**, `Supervision.Get` without a command: it does not compose. -/
theorem C11_supervision_empty_partial (rest : Bytes) (h : rest.length < 2) : ∃ m, decode (0x6C :: 0x01 :: rest) = .ok m ∧ ∃ e, compose m = .error e := by
  have key : ∀ A, ∃ e, compose (.known Reg.Supervision.Get.hid A) = .error e := by
    intro A
    rw [compose_def (by decide +kernel) 0x6C 0x01 (by decide) (by decide)]
    obtain ⟨e, he⟩ := no_command (attrs := A) (fs := Reg.Supervision.Get.fields) (f := ⟨"command", .message, some .supervisionCommand, none⟩) (by decide) rfl ⟨[0x6C, 0x01], 0⟩
    exact ⟨e, by rw [he]; rfl⟩
  rw [decode_def (d := Reg.Supervision.Get) (by decide +kernel) _ _ (by decide)]
  rcases rest with _ | ⟨b, _ | ⟨c, tl⟩⟩
  · rw [stop rfl]
    exact ⟨_, rfl, key _⟩
  · simp only [Reg.Supervision.Get] at key ⊢
    step_bits 1 b
    step_bits 1 b
    step_bits 6 b
    rw [stop rfl]
    exact ⟨_, rfl, key _⟩
  · simp at h; omega

/-- **C11**, `ZipPacket`: what `compose()` makes of a packet that was received. The two reserved bits of the first byte and the four of the second are stored under one name:
the four are written over the low bits of the first byte and over bits 2 to 5 of the second. The reserved bit of the destination is written in front of the source too.
The header options are left out, but the flag that announces them is kept. -/
theorem C11_zip_partial (f0 f1 seq s d len : UInt8) (tl : Bytes) (m : Msg) (hm : decode (0x23 :: 0x02 :: f0 :: f1 :: seq :: s :: d :: len :: tl) = .ok m) :
    let cb := if f1.toNat < 128 ∨ len = 0 then len :: tl else tl.drop (len.toNat - 1)
    (cb = [] ∧ ∃ e, compose m = .error e) ∨
    ∃ c, decode cb = .ok c ∧ compose m = (compose c).map (fun x => 0x23 :: 0x02 :: ((f0 &&& 0xfc) ||| (f1 &&& 0x0f)) :: ((f1 &&& 0xf0) ||| ((f1 &&& (0x0f : UInt8)) <<< (2 : UInt8))) :: seq ::
      ((d &&& 0x80) ||| (s &&& 0x7f)) :: d :: x) := by
  intro cb
  have key : ∀ A, ∃ e, compose (.known Reg.Zip.ZipPacket.hid A) = .error e := by
    intro A
    rw [compose_def (by decide +kernel) 0x23 0x02 (by decide) (by decide)]
    obtain ⟨e, he⟩ := no_command (attrs := A) (fs := Reg.Zip.ZipPacket.fields) (f := ⟨"command", .message, none, none⟩) (by decide) rfl ⟨[0x23, 0x02], 0⟩
    exact ⟨e, by rw [he]; rfl⟩
  rw [zip_decode] at hm
  obtain ⟨⟨o, cb'⟩, hz, hm⟩ := bind_ok hm
  have hcb : cb' = cb ∧ ∃ o', o = some o' := by
    simp only [zipBody] at hz
    split at hz
    · rename_i hc
      cases hz
      exact ⟨(if_pos hc).symm, _, rfl⟩
    · rename_i hc
      split at hz
      · cases hz
      · obtain ⟨o', -, hz⟩ := bind_ok hz
        split at hz
        · cases hz
          exact ⟨(if_neg hc).symm, _, rfl⟩
        · cases hz
  obtain ⟨rfl, o, rfl⟩ := hcb
  simp only at hm
  split at hm
  · rename_i hc
    cases hm
    exact .inl ⟨hc, key _⟩
  obtain ⟨c, hc, hm⟩ := bind_ok hm
  cases hm
  refine .inr ⟨c, hc, ?_⟩
  change compose (.wrap Reg.Zip.ZipPacket.hid _ _) = _
  rw [compose_wrap (by decide +kernel) 0x23 0x02 (by decide) (by decide)]
  simp only [Reg.Zip.ZipPacket]
  have or8 : ∀ (b : UInt8) (v : Nat), v < 256 → b.toNat ||| v ≤ 255 := fun b v hv => Nat.le_of_lt_succ (Nat.or_lt_two_pow (n := 8) b.toNat_lt hv)
  have fl : ∀ (x k j : Nat), j ≤ 7 → (x / k % 2) <<< j < 256 := by
    intro x k j hj
    have h1 : x / k % 2 < 2 := Nat.mod_lt _ (by decide)
    generalize x / k % 2 = y at h1
    have : ∀ y < 2, ∀ j < 8, y <<< j < 256 := by decide +kernel
    exact this y h1 j (by omega)
  have t0 : f1.toNat % 16 < 16 := Nat.mod_lt _ (by decide)
  have e0 : f1.toNat % 16 = (f1 &&& 0x0f).toNat := by
    rw [UInt8.toNat_and]; exact (Nat.and_two_pow_sub_one_eq_mod _ 4).symm
  have n1 : ∀ y : Nat, y < 16 → y <<< (8 - 6 - 2) < 256 ∧ y <<< (8 - 4 - 2) < 256 := by decide +kernel
  rw [put_first .flag (f0.toNat / 128 % 2) 1 rfl (by decide) rfl (fun _ => rfl) (by decide) (Nat.le_of_lt_succ (fl _ _ _ (by decide))),
    put_more .flag (f0.toNat / 64 % 2) 1 rfl (by decide) rfl (fun _ => rfl) (by decide) (by decide) (or8 _ _ (fl _ _ _ (by decide))),
    put_more .flag (f0.toNat / 32 % 2) 1 rfl (by decide) rfl (fun _ => rfl) (by decide) (by decide) (or8 _ _ (fl _ _ _ (by decide))),
    put_more .flag (f0.toNat / 16 % 2) 1 rfl (by decide) rfl (fun _ => rfl) (by decide) (by decide) (or8 _ _ (fl _ _ _ (by decide))),
    put_more .flag (f0.toNat / 8 % 2) 1 rfl (by decide) rfl (fun _ => rfl) (by decide) (by decide) (or8 _ _ (fl _ _ _ (by decide))),
    put_more .flag (f0.toNat / 4 % 2) 1 rfl (by decide) rfl (fun _ => rfl) (by decide) (by decide) (or8 _ _ (fl _ _ _ (by decide))),
    put_more (.reserved 2) (f1.toNat % 16) 2 rfl (by decide) rfl (fun _ => rfl) (by decide) (by decide) (or8 _ _ (n1 _ t0).1),
    put_first .flag (f1.toNat / 128 % 2) 1 rfl (by decide) rfl (fun _ => rfl) (by decide) (Nat.le_of_lt_succ (fl _ _ _ (by decide))),
    put_more .flag (f1.toNat / 64 % 2) 1 rfl (by decide) rfl (fun _ => rfl) (by decide) (by decide) (or8 _ _ (fl _ _ _ (by decide))),
    put_more .flag (f1.toNat / 32 % 2) 1 rfl (by decide) rfl (fun _ => rfl) (by decide) (by decide) (or8 _ _ (fl _ _ _ (by decide))),
    put_more .flag (f1.toNat / 16 % 2) 1 rfl (by decide) rfl (fun _ => rfl) (by decide) (by decide) (or8 _ _ (fl _ _ _ (by decide))),
    put_more (.reserved 2) (f1.toNat % 16) 2 rfl (by decide) rfl (fun _ => rfl) (by decide) (by decide) (or8 _ _ (n1 _ t0).2),
    put_byte seq rfl (by decide) rfl,
    put_first (.reserved 1) (d.toNat / 128 % 2) 1 rfl (by decide) rfl (fun _ => rfl) (by decide) (Nat.le_of_lt_succ (fl _ _ _ (by decide))),
    put_more (.ubits 7) (s.toNat % 128) 7 rfl (by decide) rfl (fun _ => rfl) (by decide) (by decide) (or8 _ _ (by simp; omega)),
    put_first (.reserved 1) (d.toNat / 128 % 2) 1 rfl (by decide) rfl (fun _ => rfl) (by decide) (Nat.le_of_lt_succ (fl _ _ _ (by decide))),
    put_more (.ubits 7) (d.toNat % 128) 7 rfl (by decide) rfl (fun _ => rfl) (by decide) (by decide) (or8 _ _ (by simp; omega)),
    put (.hdr o) rfl (by decide) rfl]
  simp only [serVal, bind, Except.bind]
  change (composeFields _ _ _ _ >>= fun w => (.ok w.data : Py Bytes)) = _
  rw [put_command _ rfl]
  cases compose c with
  | error e => rfl
  | ok x =>
    simp only [Except.map, bind, Except.bind, List.cons_append, List.nil_append, Except.ok.injEq, List.cons.injEq, true_and, and_true, Nat.reduceMod, Nat.reduceAdd, Nat.reduceSub]
    have all8 : ∀ {P : UInt8 → Prop}, (∀ x < 256, P (UInt8.ofNat x)) → ∀ b, P b := by
      intro P h b
      have := h b.toNat b.toNat_lt
      rwa [UInt8.ofNat_toNat] at this
    have or_eq : ∀ (a b : UInt8), UInt8.ofNat (a.toNat ||| b.toNat) = a ||| b := by
      intro a b
      apply UInt8.toNat_inj.mp
      rw [UInt8.toNat_or, UInt8.toNat_ofNat']
      exact Nat.mod_eq_of_lt (Nat.or_lt_two_pow a.toNat_lt b.toNat_lt)
    have s0 : ∀ b : UInt8, (b.toNat % 16) <<< 0 = (b &&& 0x0f).toNat := all8 (by decide +kernel)
    have s2 : ∀ b : UInt8, (b.toNat % 16) <<< 2 = ((b &&& (0x0f : UInt8)) <<< (2 : UInt8)).toNat := all8 (by decide +kernel)
    have s7 : ∀ b : UInt8, (b.toNat % 128) <<< 0 = (b &&& 0x7f).toNat := all8 (by decide +kernel)
    rw [s0, s2, s7, s7, or_eq, or_eq, or_eq, or_eq]
    refine ⟨?_, ?_, ?_, ?_⟩
    · congr 1
      generalize f0 = z
      revert z
      exact all8 (by decide +kernel)
    · congr 1
      generalize f1 = z
      revert z
      exact all8 (by decide +kernel)
    · congr 1
      generalize d = z
      revert z
      exact all8 (by decide +kernel)
    · generalize d = z
      revert z
      exact all8 (by decide +kernel)

/-- A packet with the encapsulation option: the option is gone, the flag is kept. -/
example : (decode [0x23, 0x02, 0x80, 0xd0, 7, 0, 0, 5, 0x84, 2, 0, 0, 0x20, 0x02]).bind compose = .ok [0x23, 0x02, 0x80, 0xd0, 7, 0, 0, 0x20, 0x02] := by decide +kernel

/-- Reserved bits that are not zero. -/
example : (decode [0x23, 0x02, 0x80, 0x5f, 7, 0, 0, 0x20, 0x02]).bind compose = .ok [0x23, 0x02, 0x8f, 0x7c, 7, 0, 0, 0x20, 0x02] := by decide +kernel

/-- **C11**, `ZipPacket` without anything after the fixed part, or with a part of it: it does not compose. -/
theorem C11_zip_empty_partial (rest : Bytes) (h : rest.length ≤ 5) (m : Msg) (hm : decode (0x23 :: 0x02 :: rest) = .ok m) : ∃ e, compose m = .error e := by
  have key : ∀ A, ∃ e, compose (.known Reg.Zip.ZipPacket.hid A) = .error e := by
    intro A
    rw [compose_def (by decide +kernel) 0x23 0x02 (by decide) (by decide)]
    obtain ⟨e, he⟩ := no_command (attrs := A) (fs := Reg.Zip.ZipPacket.fields) (f := ⟨"command", .message, none, none⟩) (by decide) rfl ⟨[0x23, 0x02], 0⟩
    exact ⟨e, by rw [he]; rfl⟩
  have use : ∀ pkt, (∃ A, decode pkt = .ok (.known Reg.Zip.ZipPacket.hid A)) → decode pkt = .ok m → ∃ e, compose m = .error e := by
    rintro pkt ⟨A, hA⟩ h
    rw [hA] at h
    cases h
    exact key A
  rcases rest with _ | ⟨a, _ | ⟨b, _ | ⟨c, _ | ⟨e, _ | ⟨f, _ | ⟨g, tl⟩⟩⟩⟩⟩⟩
  · refine use _ ?_ hm
    rw [decode_def (d := Reg.Zip.ZipPacket) (by decide +kernel) _ _ (by decide)]
    rw [stop rfl]
    exact ⟨_, rfl⟩
  · refine use _ ?_ hm
    rw [decode_def (d := Reg.Zip.ZipPacket) (by decide +kernel) _ _ (by decide)]
    simp only [Reg.Zip.ZipPacket]
    step_bits 1 a
    step_bits 1 a
    step_bits 1 a
    step_bits 1 a
    step_bits 1 a
    step_bits 1 a
    step_bits 2 a
    rw [stop rfl]
    exact ⟨_, rfl⟩
  · refine use _ ?_ hm
    rw [decode_def (d := Reg.Zip.ZipPacket) (by decide +kernel) _ _ (by decide)]
    simp only [Reg.Zip.ZipPacket]
    step_bits 1 a
    step_bits 1 a
    step_bits 1 a
    step_bits 1 a
    step_bits 1 a
    step_bits 1 a
    step_bits 2 a
    step_bits 1 b
    step_bits 1 b
    step_bits 1 b
    step_bits 1 b
    step_bits 4 b
    rw [stop rfl]
    exact ⟨_, rfl⟩
  · refine use _ ?_ hm
    rw [decode_def (d := Reg.Zip.ZipPacket) (by decide +kernel) _ _ (by decide)]
    simp only [Reg.Zip.ZipPacket]
    step_bits 1 a
    step_bits 1 a
    step_bits 1 a
    step_bits 1 a
    step_bits 1 a
    step_bits 1 a
    step_bits 2 a
    step_bits 1 b
    step_bits 1 b
    step_bits 1 b
    step_bits 1 b
    step_bits 4 b
    step_u8 c
    rw [stop rfl]
    exact ⟨_, rfl⟩
  · refine use _ ?_ hm
    rw [decode_def (d := Reg.Zip.ZipPacket) (by decide +kernel) _ _ (by decide)]
    simp only [Reg.Zip.ZipPacket]
    step_bits 1 a
    step_bits 1 a
    step_bits 1 a
    step_bits 1 a
    step_bits 1 a
    step_bits 1 a
    step_bits 2 a
    step_bits 1 b
    step_bits 1 b
    step_bits 1 b
    step_bits 1 b
    step_bits 4 b
    step_u8 c
    step_bits 1 e
    step_bits 7 e
    rw [stop rfl]
    exact ⟨_, rfl⟩
  · refine use _ ?_ hm
    rw [zip_decode]
    exact ⟨_, rfl⟩
  · simp at h

/-! ## Messages that are only read -/

theorem parse_named {P : Val → Prop} {n : String} {all : List Field} {dec : Reader → Py (Msg × Reader)} :
    ∀ (fs : List Field) (r : Reader) (acc A : Dict String Val) (c : Option Msg) (r' : Reader),
      (∀ f ∈ fs, f.name = n → ∀ acc r v r' v', readField f acc r = .ok (v, r') → coerce (typeOf all n) v = .ok v' → P v') →
      (∀ v, Dict.get? acc n = some v → P v) → parseFields all dec fs r acc = .ok (A, c, r') → ∀ v, Dict.get? A n = some v → P v := by
  intro fs
  induction fs with
  | nil => intro r acc A c r' _ ha h; cases h; exact ha
  | cons f fs ih =>
    intro r acc A c r' hf ha h
    by_cases hb : r.bytesLeft = 0
    · simp only [parseFields, if_pos hb] at h; cases h; exact ha
    · by_cases hm : f.ty = .message
      · simp only [parseFields, if_neg hb, if_pos hm] at h
        split at h
        · obtain ⟨⟨_, _⟩, -, h⟩ := bind_ok h
          obtain ⟨⟨_, _⟩, -, h⟩ := bind_ok h
          obtain ⟨⟨_, _⟩, -, h⟩ := bind_ok h
          cases h; exact ha
        · obtain ⟨⟨_, _⟩, -, h⟩ := bind_ok h
          cases h; exact ha
      · rw [parseFields_step hm hb] at h
        obtain ⟨⟨v, r1⟩, h1, h⟩ := bind_ok h
        obtain ⟨v', h2, h⟩ := bind_ok h
        refine ih _ _ _ _ _ (fun g hg => hf g (List.mem_cons_of_mem _ hg)) ?_ h
        intro w hw
        rw [Dict.get?_set] at hw
        split at hw
        · rename_i hn
          cases hw
          exact hf f List.mem_cons_self hn _ _ _ _ _ h1 (hn ▸ h2)
        · exact ha w hw

theorem no_compose {attrs : Dict String Val} {cmd : Option (Py Bytes)} {f : Field} {fs : List Field} (hf : f ∈ fs) (hm : f.ty ≠ .message) (hd : defaultVal f.ty = none)
    (hv : ∀ v, Dict.get? attrs f.name = some v → f.compose = none ∧ ∀ w, ∃ e, serVal v w = .error e) :
    ∀ w : Writer, ∃ e, composeFields attrs cmd fs w = .error e := by
  induction fs with
  | nil => cases hf
  | cons g fs ih =>
    intro w
    rcases List.mem_cons.mp hf with rfl | hf
    · simp only [composeFields, composeField, if_neg hm, hd]
      cases hg : Dict.get? attrs f.name with
      | none => exact ⟨_, rfl⟩
      | some v =>
        obtain ⟨hc, hs⟩ := hv v hg
        obtain ⟨e, he⟩ := hs w
        simp only [hc, he]
        exact ⟨e, rfl⟩
    · simp only [composeFields]
      cases composeField attrs cmd g w with
      | error e => exact ⟨e, rfl⟩
      | ok w => exact ih hf w

/-- Fields whose value cannot be written. -/
def unwritable (f : Field) : Bool :=
  match f.ty, f.parse with
  | .str, none | .float, none | .nodeList, none | .sensors, none | .metaExt, none => f.compose.isNone
  | .pylist, some .agiCommandClass | .pylist, some .agiGroups | .pylist, some .nodeAddCommandClass | .pyint, some .configValue => f.compose.isNone
  | .pyint, none => true
  | _, _ => false

theorem unwritable_value {f : Field} (hu : unwritable f = true) {acc : Dict String Val} {r r' : Reader} {v v' : Val} (h : readField f acc r = .ok (v, r')) (hc : coerce f.ty v = .ok v') :
    f.compose = none ∧ ∀ w, ∃ e, serVal v' w = .error e := by
  have bad : ∀ v : Val, (∀ w, serVal v w = .error .value) → ∀ w, ∃ e, serVal v w = .error e := fun v h w => ⟨_, h w⟩
  obtain ⟨name, ty, ph, ch⟩ := f
  cases ph with
  | none =>
    cases ty <;> simp only [unwritable, Option.isNone_iff_eq_none, Bool.false_eq_true] at hu <;> simp only [readField, deserVal] at h
    case str | nodeList | sensors | metaExt =>
      obtain ⟨⟨x, r1⟩, -, h⟩ := bind_ok h
      cases h
      simp only [coerce] at hc
      try split at hc
      all_goals cases hc
      exact ⟨hu, bad _ (fun _ => rfl)⟩
    case float =>
      simp only [deserFloat] at h
      obtain ⟨⟨_, _⟩, -, h⟩ := bind_ok h
      obtain ⟨⟨_, _⟩, -, h⟩ := bind_ok h
      obtain ⟨⟨_, _⟩, -, h⟩ := bind_ok h
      obtain ⟨⟨_, _⟩, -, h⟩ := bind_ok h
      cases h
      cases hc
      exact ⟨hu, bad _ (fun _ => rfl)⟩
    case pyint => cases h
  | some k =>
    cases ty <;> cases k <;> simp only [unwritable, Option.isNone_iff_eq_none, Bool.false_eq_true] at hu <;> simp only [readField, runHook] at h
    case pyint.configValue =>
      obtain ⟨_, -, h⟩ := bind_ok h
      obtain ⟨⟨_, _⟩, -, h⟩ := bind_ok h
      cases h
      cases hc
      exact ⟨hu, bad _ (fun _ => rfl)⟩
    case pylist.nodeAddCommandClass =>
      obtain ⟨_, -, h⟩ := bind_ok h
      split at h
      · cases h; cases hc; exact ⟨hu, bad _ (fun _ => rfl)⟩
      · obtain ⟨⟨_, _⟩, -, h⟩ := bind_ok h
        cases h; cases hc; exact ⟨hu, bad _ (fun _ => rfl)⟩
    case pylist.agiCommandClass =>
      obtain ⟨⟨_, _⟩, -, h⟩ := bind_ok h
      obtain ⟨⟨_, _⟩, -, h⟩ := bind_ok h
      cases h; cases hc; exact ⟨hu, bad _ (fun _ => rfl)⟩
    case pylist.agiGroups =>
      obtain ⟨_, -, h⟩ := bind_ok h
      obtain ⟨⟨_, _⟩, -, h⟩ := bind_ok h
      cases h; cases hc; exact ⟨hu, bad _ (fun _ => rfl)⟩

/-- The messages with an attribute that cannot be read or cannot be written. -/
def oneWay : List (UInt8 × UInt8) :=
  [(0x59, 0x06), (0x59, 0x04), (0x59, 0x02), (0x70, 0x06), (0x70, 0x04), (0x32, 0x02), (0x34, 0x02), (0x52, 0x0c), (0x52, 0x02), (0x78, 0x04), (0x31, 0x05), (0x31, 0x02)]

/-- **C11**: the twelve messages of `oneWay` (group command lists, group info, group names, configuration values, meter and sensor readings, inclusion status, node lists, provisioning entries, sensor masks)
never compose again, whatever the packet. -/
theorem C11_one_way_partial : ∀ p ∈ oneWay, ∀ (rest : Bytes) (m : Msg), decode (p.1 :: p.2 :: rest) = .ok m → ∃ e, compose m = .error e := by
  intro p hp rest m h
  have hall : ∀ p ∈ oneWay, ∃ d ∈ registry, d.cc = p.1.toNat ∧ d.cmd = p.2.toNat ∧
      ∃ f ∈ d.fields, unwritable f = true ∧ (d.fields.all fun g => g.name != f.name || decide (g = f)) = true ∧ typeOf d.fields f.name = f.ty := by decide +kernel
  obtain ⟨d, hd, h1, h2, f, hf, hu, hn, ht⟩ := hall p hp
  rw [decode_def hd p.1 p.2 (by have := p.2.toNat_lt; simp only [MsgDef.hid, h1, h2]; omega) rest] at h
  obtain ⟨⟨A, c, r⟩, hq, h⟩ := bind_ok h
  have hv := parse_named (P := fun v => f.compose = none ∧ ∀ w, ∃ e, serVal v w = .error e) (n := f.name) d.fields _ [] A c r (by
    intro g hg hgn acc r v r' v' hr hc
    have := List.all_eq_true.mp hn g hg
    simp only [hgn, bne_self_eq_false, Bool.false_or, decide_eq_true_eq] at this
    subst this
    rw [ht] at hc
    exact unwritable_value hu hr hc) (by simp [Dict.get?]) hq
  have hm : f.ty ≠ .message ∧ defaultVal f.ty = none := by
    obtain ⟨name, ty, ph, ch⟩ := f
    cases ty <;> cases ph <;> simp [unwritable, defaultVal] at hu ⊢
  have hx : ∀ cmd, ∃ e, composeDef d A cmd = .error e := by
    intro cmd
    simp only [composeDef, h1, h2]
    rw [show Writer.new = ⟨[], 0⟩ from rfl]
    simp only [addByte, bind, Except.bind]
    obtain ⟨e, he⟩ := no_compose (cmd := cmd) hf hm.1 hm.2 hv ⟨[] ++ [p.1] ++ [p.2], 0⟩
    rw [he]
    exact ⟨e, rfl⟩
  cases c with
  | none =>
    cases h
    simp only [compose, composeWith, find_hid d hd]
    exact hx none
  | some c =>
    cases h
    simp only [compose, composeWith, find_hid d hd]
    exact hx _

example : ∃ m, decode [0x31, 0x05, 1, 0x22, 0, 0x64] = .ok m ∧ compose m = .error .value := ⟨_, rfl, by decide +kernel⟩
example : ∃ m, decode [0x70, 0x06, 7, 1, 5] = .ok m ∧ compose m = .error .value := ⟨_, rfl, by decide +kernel⟩
example : (decode [0x70, 0x04, 7, 1, 5]) = .error .attribute := by decide +kernel

/-- **C11**, packets of no registered message, and packets of fewer than two bytes: they compose to nothing. -/
theorem C11_unknown_partial (pkt : Bytes) (h : ∀ cc cmd rest, pkt = cc :: cmd :: rest → ∀ d ∈ registry, ¬ (d.cc = cc.toNat ∧ d.cmd = cmd.toNat)) :
    ∃ m, decode pkt = .ok m ∧ compose m = .ok [] := by
  have short : ∀ b : Bytes, b.length < 2 → ∃ m, decode b = .ok m ∧ compose m = .ok [] := by
    intro b hb
    refine ⟨.unknown 0, ?_, rfl⟩
    have : (Reader.new b).bytesLeft < 2 := by simp only [Reader.new, Reader.bytesLeft]; omega
    simp only [decode, decodeN, deserMsg, if_pos this, bind, Except.bind, pure, Except.pure]
  rcases pkt with _ | ⟨cc, _ | ⟨cmd, rest⟩⟩
  · exact short _ (by decide)
  · exact short _ (by simp)
  · have hn : registry.find? (fun d => d.hid = cc.toNat * 256 + cmd.toNat) = none := by
      rw [List.find?_eq_none]
      intro d hd he
      have hb := (registry_bytes d hd).2
      have := cmd.toNat_lt
      have he := of_decide_eq_true he
      simp only [MsgDef.hid] at he
      exact h cc cmd rest rfl d hd ⟨by omega, by omega⟩
    refine ⟨.unknown (cc.toNat * 256 + cmd.toNat), ?_, rfl⟩
    simp only [decode, decodeN, List.length_cons]
    rw [deserMsg_cons, hn]
    rfl

example : (decode [0x99, 0x01, 5]).bind compose = .ok [] := by decide +kernel

/-- The theorems above and `C11_any_packet_partial` speak about every registered message. -/
theorem C11_covered : ∀ d ∈ registry, (∃ L ∈ layouts, L.title = d.name ∧ L.cc = d.cc ∧ L.cmd = d.cmd ∧ L.title ∉ overlapping) ∨
    (d.cc, d.cmd) ∈ [(0x31, 0x04), (0x58, 0x04), (0x52, 0x06), (0x52, 0x04), (0x69, 0x06), (0x6C, 0x01), (0x23, 0x02)] ∨ (UInt8.ofNat d.cc, UInt8.ofNat d.cmd) ∈ oneWay := by
  have h : registry.all (fun d => (layouts.any fun L => L.title == d.name && L.cc == d.cc && L.cmd == d.cmd && !overlapping.contains L.title) ||
      [(0x31, 0x04), (0x58, 0x04), (0x52, 0x06), (0x52, 0x04), (0x69, 0x06), (0x6C, 0x01), (0x23, 0x02)].contains (d.cc, d.cmd) || oneWay.contains (UInt8.ofNat d.cc, UInt8.ofNat d.cmd)) = true := by
    decide +kernel
  intro d hd
  have := List.all_eq_true.mp h d hd
  simp only [Bool.or_eq_true, List.any_eq_true, Bool.and_eq_true, beq_iff_eq, Bool.not_eq_true', List.contains_eq_mem, decide_eq_false_iff_not, decide_eq_true_eq] at this
  rcases this with (⟨L, hL, ⟨⟨h1, h2⟩, h3⟩, h4⟩ | h) | h
  · exact .inl ⟨L, hL, h1, h2, h3, h4⟩
  · exact .inr (.inl h)
  · exact .inr (.inr h)

end Props.Clashing

import Verif.Model.Dsk
import Verif.Lemmas.NetMan
import Verif.Props.Text
/-!
# Property theorems C108 and C109: keys in commands
-/
namespace Props.Dsk
open Spec Model Model.Dsk Model.Gateway

/-! ## C108: provisioning -/

/-- The frame of the Z-Wave standard: sequence number, length of the key, key, meta data. -/
def provisionBytes (seq : UInt8) (key ext : Bytes) : Bytes := [0x78, 0x01, seq, UInt8.ofNat key.length] ++ key ++ ext

/-- The full property. -/
def C108_statement : Prop := ∀ (seq : UInt8) (key ext : Bytes), key.length = 16 → provision seq.toNat (.raw key) ext = .ok (provisionBytes seq key ext)

/-- **C108.** The length of the key is left out. -/
theorem C108_violated : ¬ C108_statement := by
  intro h
  have := h 7 [1, 2, 3, 4, 5, 6, 7, 8, 9, 10, 11, 12, 13, 14, 15, 16] [] rfl
  revert this
  decide +kernel

/-- **C108.** What holds: the key and the meta data are sent as given, but for the length. -/
theorem C108_sent_partial (seq : UInt8) (key ext : Bytes) (h : key.length = 16) :
    provision seq.toNat (.raw key) ext = .ok ([0x78, 0x01, seq] ++ key ++ ext) ∧ provision seq.toNat (.text (dskPrinted key)) ext = .ok ([0x78, 0x01, seq] ++ key ++ ext) := by
  have e1 : given (.raw key) = .ok key := (C21_raw [] key).1 (.inl h)
  have e2 : given (.text (dskPrinted key)) = .ok key := (C21_dsk_text key [] h).2.2
  have := compose_of_layout (L := ⟨"NodeProvisioning.Set", 0x78, 0x01, [.num "seqNo" 8, .dsk "dsk", .rest "metaDataExtension"]⟩)
    (by decide +kernel) (d := Reg.NodeProvisioning.Set) (by decide +kernel) rfl
    (a := arg1 "seqNo" (.int seq.toNat) <| arg1 "dsk" (.bytes key) <| arg1 "metaDataExtension" (.bytes ext) fun _ => none) (b := [0x78, 0x01, seq] ++ key ++ ext)
    (by repeat' (first | (apply reserved_arg1 (by decide)) | (intro _ _; rfl))) (by
      have : (seq.toNat : Int) < 256 := by have := seq.toNat_lt; omega
      simp [Layout.wire, slotsWire, Slot.wire, arg1, h, this, bitsOf_append])
  obtain ⟨m, c1, c2⟩ := this
  have c1' : construct Reg.NodeProvisioning.Set (fun n =>
      if n = "seqNo" then some (.num .pyint seq.toNat) else if n = "dsk" then some (.bytes key) else if n = "metaDataExtension" then some (.bytes ext) else none) = .ok m := by
    rw [← c1]
    congr 1
    funext n
    simp only [argKw, arg1]
    repeat' split
    all_goals rfl
  constructor
  · simp only [provision, e1, bind, Except.bind, c1', c2]
  · simp only [provision, e2, bind, Except.bind, c1', c2]

/-! ## C109: confirming the key of a node -/

/-- What the user means by an argument, if `n` bytes are asked for: a whole key, as bytes, as text or as it is found in a message; or the bytes that were asked for. -/
inductive Means : Dsk.Arg → Nat → Bytes → Prop
  | raw (key : Bytes) (n : Nat) : key.length = 16 → Means (.raw key) n key
  | text (key : Bytes) (n : Nat) : key.length = 16 → Means (.text (dskPrinted key)) n key
  | object (key : Bytes) (n : Nat) : key.length = 16 → Means (.key key) n key
  | digits (b : Bytes) : Means (.raw b) b.length b

/-- The full property. -/
def C109_statement : Prop := ∀ (seq : UInt8) (accept : Bool) (n : Nat) (a : Dsk.Arg) (b : Bytes), n < 16 → Means a n b →
  dskSet seq.toNat accept n a = .ok ([0x34, 0x14, seq, UInt8.ofNat ((if accept then 128 else 0) + n)] ++ b)

/-- **C109.** The key from the report of the node, a `dsk_t` object as the signature demands, is not accepted: AttributeError is raised. -/
theorem C109_violated : ¬ C109_statement := by
  intro h
  have := h 1 true 2 (.key [1, 2, 3, 4, 5, 6, 7, 8, 9, 10, 11, 12, 13, 14, 15, 16]) _ (by decide) (.object _ _ rfl)
  revert this
  decide +kernel

/-- **C109.** The two bytes of a PIN are not accepted either: ValueError is raised. -/
theorem C109_digits_violated : ¬ ∀ (seq : UInt8) (b : Bytes), b.length < 16 → dskSet seq.toNat true b.length (.raw b) =
    .ok ([0x34, 0x14, seq, UInt8.ofNat (128 + b.length)] ++ b) := by
  intro h
  have := h 1 [0x30, 0x39] (by decide)
  revert this
  decide +kernel

/-- **C109.** A PIN as text is accepted, but no digits are sent. -/
theorem C109_pin_text_violated : dskSet 1 true 2 (.text "12345".toList) = .ok [0x34, 0x14, 0x01, 0x82] := by decide +kernel

/-- **C109.** What holds: a whole key as bytes or text, and an empty one, are sent. -/
theorem C109_whole_partial (seq : UInt8) (accept : Bool) (n : Nat) (hn : n < 16) (key : Bytes) (h : key.length = 16) :
    dskSet seq.toNat accept n (.raw key) = .ok ([0x34, 0x14, seq, UInt8.ofNat ((if accept then 128 else 0) + n)] ++ key) ∧
    dskSet seq.toNat accept n (.text (dskPrinted key)) = .ok ([0x34, 0x14, seq, UInt8.ofNat ((if accept then 128 else 0) + n)] ++ key) ∧
    dskSet seq.toNat accept n (.raw []) = .ok [0x34, 0x14, seq, UInt8.ofNat ((if accept then 128 else 0) + n)] := by
  have hq := seq.toNat_lt
  have hb : byte (seq.toNat : Int) = seq := by simp [byte]
  have hb2 : byte ((if accept then 128 else 0) + (n : Int)) = UInt8.ofNat ((if accept then 128 else 0) + n) := by
    unfold byte; congr 1; cases accept <;> simp <;> omega
  have e1 : given (.raw key) = .ok key := (C21_raw [] key).1 (.inl h)
  have e2 : given (.text (dskPrinted key)) = .ok key := (C21_dsk_text key [] h).2.2
  have e3 : given (.raw []) = .ok [] := rfl
  obtain ⟨m, c1, c2⟩ := command_compose (.addNodeDSKSet accept n key) ⟨by omega, by omega, .inl h⟩ seq.toNat hq
  obtain ⟨m', c1', c2'⟩ := command_compose (.addNodeDSKSet accept n []) ⟨by omega, by omega, .inr rfl⟩ seq.toNat hq
  simp only [nmBytes, hb, hb2, List.append_nil] at c2 c2'
  refine ⟨?_, ?_, ?_⟩
  · simp only [dskSet, e1, bind, Except.bind, c1, c2]
  · simp only [dskSet, e2, bind, Except.bind, c1, c2]
  · simp only [dskSet, e3, bind, Except.bind, c1', c2']

/-- **C109.** What is refused raises and sends nothing: objects, and bytes of another length. -/
theorem C109_refused_partial (seq : Nat) (accept : Bool) (n : Int) (b : Bytes) :
    dskSet seq accept n (.key b) = .error .attribute ∧ (b.length ≠ 16 → b.length ≠ 0 → dskSet seq accept n (.raw b) = .error .value) := by
  refine ⟨rfl, fun h1 h2 => ?_⟩
  simp only [dskSet, show given (.raw b) = .error .value from (C21_raw [] b).2 h1 h2]
  rfl

end Props.Dsk

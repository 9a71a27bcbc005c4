import Verif.Lemmas.Stream
/-!
# C01-C05: bit stream reader, writer, integer encoding
-/
namespace Props
open Spec Model

/-- **C01.** `bits(n)` inside one byte returns the number spelled by the next `n` bits of
the buffer and moves by exactly `n` bits (not at all when peeking). -/
theorem C01_bits (data : Bytes) (pos n : Nat) (adv : Bool)
    (hin : pos / 8 < data.length) (hfit : pos % 8 + n ≤ 8) :
    (Reader.mk data pos).bits n adv =
      .ok (ofBits (((bitsOf data).drop pos).take n), ⟨data, if adv then pos + n else pos⟩) := by
  rw [Reader.bits_ok (r := ⟨data, pos⟩) hin hfit]
  cases adv <;> rfl

/-- **C01.** Reading bits twice without advancing gives the same number. -/
theorem C01_peek_stable (r : Reader) (n : Nat) (x : Nat) (r' : Reader)
    (h : r.bits n false = .ok (x, r')) : r' = r ∧ r'.bits n false = .ok (x, r) := by
  have hr : r' = r := by
    unfold Reader.bits at h
    split at h
    · cases h
    · simp only at h
      split at h
      · cases h
      · cases h; rfl
  subst hr
  exact ⟨rfl, h⟩

/-- non-vacuity: bits 3..5 of `[0b10110011]` -/
example : (Reader.mk [0xB3] 3).bits 3 = .ok (4, ⟨[0xB3], 6⟩) := by decide

/-- **C01.** `bit()` returns the bit at the position, and moves past it unless told not to. -/
theorem C01_bit (r : Reader) (adv : Bool) (h : r.start / 8 < r.data.length) :
    r.bit adv = .ok (ofBits (((bitsOf r.data).drop r.start).take 1), ⟨r.data, r.start + if adv then 1 else 0⟩) := by
  have := Nat.mod_lt r.start (show 0 < 8 by decide)
  simp only [Reader.bit]
  rw [Reader.bits_ok h (by omega)]
  cases adv <;> rfl

example : (Reader.mk [0xB3] 3).bit = .ok (1, ⟨[0xB3], 4⟩) ∧ (Reader.mk [0xB3] 1).bit false = .ok (0, ⟨[0xB3], 1⟩) := by decide

/-- **C02.** `value(n)` at a byte boundary returns exactly the next `n` bytes and moves
`n` bytes, or raises `EOFError` if fewer than `n` bytes are left. -/
theorem C02_value (data : Bytes) (k n : Nat) :
    (Reader.mk data (8 * k)).value n =
      if n ≤ data.length - k ∧ k ≤ data.length
        then .ok ((data.drop k).take n, ⟨data, 8 * (k + n)⟩)
        else .error .eof := by
  have hk : 8 * k / 8 = k := by omega
  by_cases h : k + n ≤ data.length
  · rw [if_pos (by omega), Reader.value_ok (by simp only [hk]; omega)]
    simp only [hk, Reader.advance, if_true]
    congr 3; omega
  · rw [if_neg (by omega), Reader.value_eof (by simp only [hk]; omega)]

/-- **C02.** The returned bytes are never fewer than requested, at any bit position. -/
theorem C02_value_never_short (r : Reader) (n : Nat) (adv : Bool) (b : Bytes) (r' : Reader)
    (h : r.value n adv = .ok (b, r')) : b.length = n ∧ r'.data = r.data ∧ r'.start = if adv then r.start + 8 * n else r.start := by
  unfold Reader.value at h
  simp only at h
  split at h
  · cases h
  · rename_i hle
    cases h
    refine ⟨?_, ?_, ?_⟩
    · rw [List.length_take, List.length_drop]; omega
    · cases adv <;> rfl
    · cases adv <;> simp [Reader.advance]; omega

/-- **C02.** At the end of the buffer `byte()`, `bits(n)` and `value(n+1)` all raise EOFError. -/
theorem C02_eof (r : Reader) (adv : Bool) (n : Nat) (h : r.data.length ≤ r.start / 8) :
    r.byte adv = .error .eof ∧ r.bits n adv = .error .eof ∧ r.value (n + 1) adv = .error .eof :=
  ⟨Reader.byte_eof h, Reader.bits_eof h, Reader.value_eof (by omega)⟩

/-- **C02.** `byte()` inside the buffer returns the byte at the position and moves one byte. -/
theorem C02_byte (data : Bytes) (k : Nat) (h : k < data.length) (adv : Bool) :
    (Reader.mk data (8 * k)).byte adv = .ok (data[k], ⟨data, if adv then 8 * (k + 1) else 8 * k⟩) := by
  have hk : 8 * k / 8 = k := by omega
  rw [Reader.byte_ok (r := ⟨data, 8 * k⟩) (by simp only [hk]; exact h)]
  simp only [hk]
  cases adv
  · rfl
  · simp [Reader.advance]; omega

/-- **C02.** `remaining()` at a byte boundary returns everything that is left. -/
theorem C02_remaining (data : Bytes) (k : Nat) :
    ((Reader.mk data (8 * k)).remaining false) = (data.drop k, ⟨data, 8 * k⟩) ∧
    ((Reader.mk data (8 * k)).remaining true).1 = data.drop k := by
  have hk : 8 * k / 8 = k := by omega
  simp [Reader.remaining, hk]

/-- **C02.** `peekValue(n)` and `peekByte()` return what the read would return, and raise EOFError where it would. -/
theorem C02_peek (data : Bytes) (k n : Nat) :
    (Reader.mk data (8 * k)).peekValue n = (if k + n ≤ data.length then .ok ((data.drop k).take n) else .error .eof) ∧
    (Reader.mk data (8 * k)).peekByte = (match data[k]? with | some b => .ok b | none => .error .eof) := by
  have hk : 8 * k / 8 = k := by omega
  constructor
  · simp only [Reader.peekValue, Reader.value, hk]
    by_cases h : k + n ≤ data.length
    · rw [if_neg (by omega), if_pos h]
    · rw [if_pos (by omega), if_neg h]
  · by_cases h : k < data.length
    · rw [List.getElem?_eq_getElem h, Reader.peekByte_ok (r := ⟨data, 8 * k⟩) (by simpa only [hk] using h)]
      simp only [hk]
    · rw [List.getElem?_eq_none (by omega), Reader.peekByte_eof (r := ⟨data, 8 * k⟩) (by simp only [hk]; omega)]

example : (Reader.mk [1, 2, 3] 8).peekValue 2 = .ok [2, 3] ∧ (Reader.mk [1, 2, 3] 8).peekValue 3 = .error .eof := by decide
example : (Reader.mk [1, 2, 3] 8).value 2 = .ok ([2, 3], ⟨[1, 2, 3], 24⟩) := by decide
example : (Reader.mk [1, 2, 3] 8).value 3 = .error .eof := by decide

/-- A write request: sub-byte bits or a whole-byte integer. -/
inductive WOp
  | bits (v n : Nat)
  | bytes (v : Int) (size : Nat) (signed : Bool)

/-- Perform write requests in order with the library's writer. -/
def runOps : List WOp → Writer → Py Writer
  | [], w => .ok w
  | .bits v n :: ops, w => match w.addBits v n with | .ok w' => runOps ops w' | .error e => .error e
  | .bytes v s g :: ops, w => match w.addBytes v s g with | .ok w' => runOps ops w' | .error e => .error e

/-- What the requests ask for, as a bit string. -/
def opBits : WOp → List Bool
  | .bits v n => toBits n v
  | .bytes v s _ => toBitsZ (8 * s) v

/-- All values are in range and no request crosses a byte boundary when starting `off` bits
into a byte. -/
def Fits : Nat → List WOp → Prop
  | _, [] => True
  | off, .bits v n :: ops => 0 < n ∧ off + n ≤ 8 ∧ v < 2 ^ n ∧ Fits ((off + n) % 8) ops
  | off, .bytes v s g :: ops => off = 0 ∧
      (if g then 0 < s ∧ -(2 ^ (8 * s - 1)) ≤ v ∧ v < 2 ^ (8 * s - 1) else 0 ≤ v ∧ v < 2 ^ (8 * s)) ∧ Fits 0 ops

theorem toBytesBE_ok_of_range {v : Int} {s : Nat} {g : Bool}
    (h : if g then 0 < s ∧ -(2 ^ (8 * s - 1)) ≤ v ∧ v < 2 ^ (8 * s - 1) else 0 ≤ v ∧ v < 2 ^ (8 * s)) :
    ∃ b, toBytesBE v s g = .ok b := by
  cases g
  · simp only [Bool.false_eq_true, if_false] at h
    exact ⟨_, by simp only [toBytesBE, Bool.false_eq_true, if_false]; rw [if_pos h]⟩
  · simp only [if_true] at h
    exact ⟨_, by simp only [toBytesBE, if_true]; rw [if_neg (by omega), if_pos h.2]⟩

theorem runOps_spec (ops : List WOp) (w : Writer) (hw : w.Ok) (hf : Fits w.start ops) :
    ∃ w', runOps ops w = .ok w' ∧ w'.Ok ∧ w'.bits = w.bits ++ ops.flatMap opBits := by
  induction ops generalizing w with
  | nil => exact ⟨w, rfl, hw, by simp⟩
  | cons op ops ih =>
    cases op with
    | bits v n =>
      obtain ⟨h1, h2, h3, h4⟩ := hf
      obtain ⟨w1, e1, ok1, b1, s1⟩ := Writer.addBits_ok hw h1 h2 h3
      obtain ⟨w2, e2, ok2, b2⟩ := ih w1 ok1 (by rw [s1]; exact h4)
      exact ⟨w2, by simp [runOps, e1, e2], ok2, by rw [b2, b1]; simp [opBits]⟩
    | bytes v s g =>
      obtain ⟨h1, h2, h3⟩ := hf
      obtain ⟨b, hb⟩ := toBytesBE_ok_of_range h2
      obtain ⟨w1, e1, ok1, b1, s1⟩ := Writer.addBytes_ok h1 hb
      obtain ⟨w2, e2, ok2, b2⟩ := ih w1 ok1 (by rw [s1]; exact h3)
      exact ⟨w2, by simp [runOps, e1, e2], ok2, by rw [b2, b1]; simp [opBits]⟩

theorem Writer.data_bits {w : Writer} (hw : w.Ok) :
    ∃ p, p < 8 ∧ bitsOf w.data = w.bits ++ List.replicate p false := by
  by_cases hs : w.start = 0
  · exact ⟨0, by omega, by rw [Writer.bits_aligned hs]; simp⟩
  · obtain ⟨pre, b, hd, hb⟩ := hw.2 hs
    refine ⟨8 - w.start, by omega, ?_⟩
    have h8 := hw.1
    rw [Writer.bits_partial hs hw.1 hd, hd, bitsOf_append, bitsOf_cons, bitsOf_nil, List.append_nil, List.append_assoc]
    congr 1
    rw [show (8:Nat) = w.start + (8 - w.start) by omega, toBits_add]
    rw [show w.start + (8 - w.start) - w.start = 8 - w.start by omega]
    congr 1
    rw [← toBits_mod, hb]
    have : ∀ n, toBits n 0 = List.replicate n false := by
      intro n; induction n with
      | zero => rfl
      | succ n ih => rw [toBits_succ, ih, List.replicate_succ]; simp
    exact this _

/-- **C03.** Any sequence of in-range writes that respects byte boundaries succeeds and the
produced bytes are the concatenation of the requested bits, zero-padded to a whole byte. -/
theorem C03_writes (ops : List WOp) (hf : Fits 0 ops) :
    ∃ w, runOps ops Writer.new = .ok w ∧
      ∃ p, p < 8 ∧ bitsOf w.data = ops.flatMap opBits ++ List.replicate p false := by
  obtain ⟨w, e, ok, b⟩ := runOps_spec ops Writer.new Writer.ok_new hf
  obtain ⟨p, hp, hd⟩ := Writer.data_bits ok
  exact ⟨w, e, p, hp, by rw [hd, b]; simp [Writer.bits_new]⟩

example : Fits 0 [.bits 1 1, .bits 5 3, .bits 9 4, .bytes (-2) 3 true, .bits 2 2] := by simp [Fits]
example : (runOps [.bits 1 1, .bits 5 3, .bits 9 4, .bytes (-2) 3 true, .bits 2 2] Writer.new).map Writer.data
    = .ok [0xD9, 0xFF, 0xFF, 0xFE, 0x80] := by decide

/-- The integers representable in `size` bytes. -/
def InRange (size : Nat) (signed : Bool) (v : Int) : Prop :=
  if signed then -(2 ^ (8 * size - 1)) ≤ v ∧ v < 2 ^ (8 * size - 1) else 0 ≤ v ∧ v < 2 ^ (8 * size)

/-- **C04.** Writing an integer as `size` bytes writes exactly its big-endian two's complement
representation if it is in range and raises `OverflowError` otherwise. -/
theorem C04_addBytes (w : Writer) (v : Int) (size : Nat) (signed : Bool) (hs : 0 < size) :
    (InRange size signed v → ∃ b, w.addBytes v size signed = .ok ⟨w.data ++ b, 0⟩ ∧
        b.length = size ∧ bitsOf b = toBitsZ (8 * size) v) ∧
    (¬ InRange size signed v → w.addBytes v size signed = .error .overflow) := by
  constructor
  · intro h
    obtain ⟨b, hb⟩ := toBytesBE_ok_of_range (v := v) (s := size) (g := signed)
      (by cases signed <;> simp_all [InRange])
    exact ⟨b, by simp [Writer.addBytes, hb], (toBytesBE_bits hb).1, (toBytesBE_bits hb).2⟩
  · intro h
    have : toBytesBE v size signed = .error .overflow := by
      unfold toBytesBE
      cases signed
      · simp only [InRange, Bool.false_eq_true, if_false] at h ⊢
        rw [if_neg h]
      · simp only [InRange, if_true] at h ⊢
        rw [if_neg (by omega), if_neg h]
    simp [Writer.addBytes, this]

example : InRange 3 true (-8388608) ∧ ¬ InRange 3 true 8388608 ∧ InRange 1 false 255 ∧ ¬ InRange 1 false 256 ∧ ¬ InRange 2 false (-1) := by
  simp [InRange]

end Props

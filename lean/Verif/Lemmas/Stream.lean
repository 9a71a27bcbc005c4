import Verif.Lemmas.Bits
import Verif.Model.Stream
/-! Helper lemmas about the reader and the writer. -/
namespace Model
open Spec

theorem fromBytesBE_eq (b : Bytes) : fromBytesBE b = beNat b := by
  have : ∀ (b : Bytes) (acc : Nat), b.foldl (fun acc x => acc * 256 + x.toNat) acc = acc * 256 ^ b.length + beNat b := by
    intro b
    induction b with
    | nil => intro acc; simp [beNat]
    | cons x xs ih =>
      intro acc
      simp only [List.foldl_cons, ih, List.length_cons, beNat, Nat.pow_succ, Nat.add_mul]
      rw [Nat.mul_assoc, Nat.mul_comm 256]; omega
  simpa [fromBytesBE] using this b 0

@[simp] theorem natToBE_length (n v : Nat) : (natToBE n v).length = n := by
  induction n with
  | zero => rfl
  | succ n ih => simp [natToBE, ih]

theorem bitsOf_natToBE (n v : Nat) : bitsOf (natToBE n v) = toBits (8 * n) v := by
  induction n with
  | zero => rfl
  | succ n ih =>
    rw [natToBE, bitsOf_cons, ih, show 8 * (n+1) = 8 + 8 * n by omega, toBits_add]
    congr 1
    apply toBits_congr
    rw [UInt8.toNat_ofNat', Nat.pow_mul]
    simp

theorem beNat_natToBE (n v : Nat) : beNat (natToBE n v) = v % 256 ^ n := by
  rw [beNat_eq, bitsOf_natToBE, ofBits_toBits, Nat.pow_mul]

/-- The bits that have not been read. -/
def Reader.rest (r : Reader) : List Bool := (bitsOf r.data).drop r.start

theorem Reader.rest_advance (r : Reader) (n : Nat) : (r.advance n).rest = r.rest.drop n := by
  simp [Reader.rest, Reader.advance, List.drop_drop]

/-- one byte: shifting = dropping / taking bits -/
theorem byte_bits (x s n : Nat) (h : s + n ≤ 8) :
    (((x <<< s) &&& 0xFF) >>> (8 - n)) &&& 0xFF = ofBits (((toBits 8 x).drop s).take n) := by
  have e1 : toBits 8 x = toBits s (x / 2 ^ (8 - s)) ++ (toBits n (x / 2 ^ (8 - s - n)) ++ toBits (8 - s - n) x) := by
    rw [← toBits_add, show n + (8 - s - n) = 8 - s by omega, ← toBits_add, show s + (8 - s) = 8 by omega]
  rw [e1, List.drop_append_of_le_length (by simp), List.drop_eq_nil_of_le (by simp), List.nil_append,
    List.take_append_of_le_length (by simp), List.take_of_length_le (by simp), ofBits_toBits]
  rw [show (0xFF : Nat) = 2 ^ 8 - 1 by rfl, Nat.and_two_pow_sub_one_eq_mod, Nat.and_two_pow_sub_one_eq_mod,
    Nat.shiftLeft_eq, Nat.shiftRight_eq_div_pow]
  -- (x * 2^s % 2^8) / 2^(8-n) % 2^8 = x / 2^(8-s-n) % 2^n
  have h8 : (2:Nat) ^ 8 = 2 ^ (8 - n) * 2 ^ n := by rw [← Nat.pow_add]; congr 1; omega
  have hlt : x * 2 ^ s % 2 ^ 8 / 2 ^ (8 - n) < 2 ^ n := by
    rw [Nat.div_lt_iff_lt_mul (Nat.two_pow_pos _), Nat.mul_comm (2 ^ n), ← h8]
    exact Nat.mod_lt _ (Nat.two_pow_pos _)
  have hle : (2:Nat) ^ n ≤ 2 ^ 8 := Nat.pow_le_pow_right (by omega) (by omega)
  rw [Nat.mod_eq_of_lt (Nat.lt_of_lt_of_le hlt hle)]
  conv => lhs; rw [h8]
  rw [Nat.mod_mul_right_div_self]
  congr 1
  rw [show 8 - n = (8 - s - n) + s by omega, Nat.pow_add]
  exact Nat.mul_div_mul_right _ _ (Nat.two_pow_pos _)

theorem getElem_drop_bits (data : Bytes) (k : Nat) (h : k < data.length) :
    data.drop k = data[k] :: data.drop (k+1) := List.drop_eq_getElem_cons h

theorem Reader.value_ok {r : Reader} {n : Nat} {adv : Bool} (h : r.start / 8 + n ≤ r.data.length) :
    r.value n adv = .ok ((r.data.drop (r.start / 8)).take n, if adv then r.advance (n * 8) else r) := by
  simp only [Reader.value]
  rw [if_neg (by omega)]

theorem Reader.value_eof {r : Reader} {n : Nat} {adv : Bool} (h : r.data.length < r.start / 8 + n) :
    r.value n adv = .error .eof := by
  simp only [Reader.value]
  rw [if_pos (by omega)]

theorem Reader.byte_ok {r : Reader} {adv : Bool} (h : r.start / 8 < r.data.length) :
    r.byte adv = .ok (r.data[r.start / 8], if adv then r.advance 8 else r) := by
  simp only [Reader.byte, Reader.value_ok (n := 1) (adv := adv) (r := r) (by omega)]
  have e : (r.data.drop (r.start / 8)).take 1 = [r.data[r.start / 8]] := by
    rw [List.drop_eq_getElem_cons h]; rfl
  rw [e]

theorem Reader.byte_eof {r : Reader} {adv : Bool} (h : r.data.length ≤ r.start / 8) :
    r.byte adv = .error .eof := by
  simp only [Reader.byte, Reader.value_eof (n := 1) (adv := adv) (r := r) (by omega)]

theorem Reader.peekByte_ok {r : Reader} (h : r.start / 8 < r.data.length) :
    r.peekByte = .ok (r.data[r.start / 8]) := by
  simp [Reader.peekByte, Reader.byte_ok h]

theorem Reader.peekByte_eof {r : Reader} (h : r.data.length ≤ r.start / 8) :
    r.peekByte = .error .eof := by
  simp [Reader.peekByte, Reader.byte_eof h]

theorem Reader.rest_take {r : Reader} {n : Nat} (h : r.start / 8 < r.data.length) (hn : r.start % 8 + n ≤ 8) :
    r.rest.take n = ((toBits 8 (r.data[r.start/8]).toNat).drop (r.start % 8)).take n := by
  have e : r.start = 8 * (r.start / 8) + r.start % 8 := (Nat.div_add_mod _ _).symm
  simp only [Reader.rest]
  conv => lhs; rw [e]
  rw [← List.drop_drop, bitsOf_drop, List.drop_eq_getElem_cons h, bitsOf_cons,
    List.drop_append_of_le_length (by simp; omega),
    List.take_append_of_le_length (by simp; omega)]

theorem Reader.bits_ok {r : Reader} {n : Nat} {adv : Bool} (h : r.start / 8 < r.data.length)
    (hn : r.start % 8 + n ≤ 8) :
    r.bits n adv = .ok (ofBits (r.rest.take n), if adv then r.advance n else r) := by
  simp only [Reader.bits, Reader.peekByte_ok h]
  rw [if_neg (by omega), byte_bits _ _ _ hn, Reader.rest_take h hn]

theorem Reader.bits_eof {r : Reader} {n : Nat} {adv : Bool} (h : r.data.length ≤ r.start / 8) :
    r.bits n adv = .error .eof := by
  simp only [Reader.bits, Reader.peekByte_eof h]

/-- Writer invariant: a started byte exists and its unused low bits are zero. -/
def Writer.Ok (w : Writer) : Prop :=
  w.start < 8 ∧ (w.start ≠ 0 → ∃ pre b, w.data = pre ++ [b] ∧ b.toNat % 2 ^ (8 - w.start) = 0)

/-- The bits written so far. -/
def Writer.bits (w : Writer) : List Bool :=
  (bitsOf w.data).take (8 * w.data.length - (if w.start = 0 then 0 else 8 - w.start))

theorem Writer.bits_aligned {w : Writer} (h : w.start = 0) : w.bits = bitsOf w.data := by
  simp [Writer.bits, h, List.take_of_length_le]

theorem Writer.bits_partial {w : Writer} {pre b} (h : w.start ≠ 0) (h8 : w.start < 8) (hd : w.data = pre ++ [b]) :
    w.bits = bitsOf pre ++ toBits w.start (b.toNat / 2 ^ (8 - w.start)) := by
  have e1 : toBits 8 b.toNat = toBits w.start (b.toNat / 2 ^ (8 - w.start)) ++ toBits (8 - w.start) b.toNat := by
    rw [← toBits_add]; congr 1; omega
  rw [Writer.bits, if_neg h, hd, bitsOf_append, bitsOf_cons, bitsOf_nil, List.append_nil, e1, ← List.append_assoc]
  rw [List.take_append_of_le_length (by simp; omega), List.take_of_length_le (by simp; omega)]

theorem Writer.ok_new : Writer.new.Ok := ⟨by simp [Writer.new], by simp [Writer.new]⟩
theorem Writer.bits_new : Writer.new.bits = [] := rfl

/-- or-ing into zero low bits is adding -/
theorem or_add (b v s n : Nat) (hb : b % 2 ^ (s + n) = 0) (hv : v < 2 ^ n) :
    b ||| (v <<< s) = b + v * 2 ^ s := by
  rw [Nat.shiftLeft_eq]
  have hlt : v * 2 ^ s < 2 ^ (s + n) := by
    rw [Nat.pow_add, Nat.mul_comm]
    exact Nat.mul_lt_mul_of_pos_left hv (Nat.two_pow_pos _)
  obtain ⟨k, hk⟩ := Nat.dvd_of_mod_eq_zero hb
  subst hk
  exact (Nat.two_pow_add_eq_or_of_lt hlt k).symm

theorem Writer.addBits_ok {w : Writer} {v n : Nat} (hw : w.Ok) (hn : 0 < n) (h8 : w.start + n ≤ 8) (hv : v < 2 ^ n) :
    ∃ w', w.addBits (v : Int) n = .ok w' ∧ w'.Ok ∧ w'.bits = w.bits ++ toBits n v ∧
      w'.start = (w.start + n) % 8 := by
  -- the byte being filled
  have key : ∀ (pre : Bytes) (b : Nat), b < 256 → b % 2 ^ (8 - w.start) = 0 →
      bitsOf pre ++ toBits w.start (b / 2 ^ (8 - w.start)) = w.bits →
      ∃ w' : Writer, (if b ||| (v <<< (8 - w.start - n)) > 255 then Except.error PyErr.value
        else .ok ⟨pre ++ [UInt8.ofNat (b ||| (v <<< (8 - w.start - n)))], (w.start + n) % 8⟩) = Except.ok w' ∧ w'.Ok ∧
        w'.bits = w.bits ++ toBits n v ∧ w'.start = (w.start + n) % 8 := by
    intro pre b hb hmod hbits
    have hor : b ||| (v <<< (8 - w.start - n)) = b + v * 2 ^ (8 - w.start - n) :=
      or_add b v _ n (by rw [show 8 - w.start - n + n = 8 - w.start by omega]; exact hmod) hv
    obtain ⟨k, hk⟩ := Nat.dvd_of_mod_eq_zero hmod
    have hsplit : 2 ^ (8 - w.start) = 2 ^ (8 - w.start - n) * 2 ^ n := by
      rw [← Nat.pow_add]; congr 1; omega
    have h256 : (256 : Nat) = 2 ^ (8 - w.start) * 2 ^ w.start := by
      rw [← Nat.pow_add, show 8 - w.start + w.start = 8 by omega]
    have hP : 0 < 2 ^ (8 - w.start) := Nat.two_pow_pos _
    have hP2 : 0 < 2 ^ (8 - w.start - n) := Nat.two_pow_pos _
    have hkl : k < 2 ^ w.start := by
      rw [hk, h256] at hb; exact Nat.lt_of_mul_lt_mul_left hb
    have hnew : b + v * 2 ^ (8 - w.start - n) < 256 := by
      have h1 : v * 2 ^ (8 - w.start - n) < 2 ^ (8 - w.start) := by
        rw [hsplit, Nat.mul_comm]; exact Nat.mul_lt_mul_of_pos_left hv hP2
      have h2 : b + 2 ^ (8 - w.start) ≤ 256 := by
        rw [hk, h256, ← Nat.mul_succ]; exact Nat.mul_le_mul_left _ hkl
      omega
    rw [hor, if_neg (by omega)]
    refine ⟨_, rfl, ?_, ?_, rfl⟩
    · refine ⟨Nat.mod_lt _ (by omega), fun hne => ⟨pre, _, rfl, ?_⟩⟩
      have hs : (w.start + n) % 8 = w.start + n := by
        simp only at hne
        rcases Nat.lt_or_ge (w.start + n) 8 with h | h
        · exact Nat.mod_eq_of_lt h
        · have : w.start + n = 8 := by omega
          rw [this] at hne; simp at hne
      simp only [hs, UInt8.toNat_ofNat']
      rw [Nat.mod_eq_of_lt hnew, hk, hsplit, show 8 - (w.start + n) = 8 - w.start - n by omega, Nat.mul_assoc,
        Nat.mul_comm v, ← Nat.mul_add]
      exact Nat.mul_mod_right _ _
    · rw [← hbits]
      have hval : (UInt8.ofNat (b + v * 2 ^ (8 - w.start - n))).toNat = b + v * 2 ^ (8 - w.start - n) := by
        rw [UInt8.toNat_ofNat']; exact Nat.mod_eq_of_lt hnew
      have hdiv : (b + v * 2 ^ (8 - w.start - n)) / 2 ^ (8 - w.start - n) = k * 2 ^ n + v := by
        rw [hk, hsplit, Nat.mul_assoc, Nat.mul_comm v, ← Nat.mul_add, Nat.mul_div_cancel_left _ hP2, Nat.mul_comm k]
      have hbk : b / 2 ^ (8 - w.start) = k := by rw [hk, Nat.mul_div_cancel_left _ hP]
      have hfin : toBits (w.start + n) (k * 2 ^ n + v) = toBits w.start k ++ toBits n v := by
        rw [toBits_add]
        congr 1
        · rw [Nat.mul_comm, Nat.mul_add_div (Nat.two_pow_pos _), Nat.div_eq_of_lt hv, Nat.add_zero]
        · apply toBits_congr; rw [Nat.mul_comm, Nat.mul_add_mod]
      rcases Nat.lt_or_ge (w.start + n) 8 with h | h
      · have hs : (w.start + n) % 8 = w.start + n := Nat.mod_eq_of_lt h
        rw [Writer.bits_partial (pre := pre) (b := UInt8.ofNat (b + v * 2 ^ (8 - w.start - n)))
          (by simp only [hs]; omega) (by simp only [hs]; omega) rfl]
        simp only [hs, hval]
        rw [show 8 - (w.start + n) = 8 - w.start - n by omega, hdiv, hbk, hfin, List.append_assoc]
      · have h8' : w.start + n = 8 := by omega
        rw [Writer.bits_aligned (by simp [h8']), bitsOf_append, bitsOf_cons, bitsOf_nil, List.append_nil, hval, hbk,
          List.append_assoc, ← hfin, h8', ← hdiv, show 8 - w.start - n = 0 by omega]
        simp
  unfold Writer.addBits
  simp only [Int.toNat_natCast]
  have hc : ¬ (w.start + n > 8) := by omega
  have hc2 : ¬ ((v : Int) < 0) := by omega
  by_cases hs : w.start = 0
  · rw [if_pos hs, if_neg hc, if_neg hc2]
    refine key w.data 0 (by omega) (by simp) ?_
    rw [Writer.bits_aligned hs, hs]; simp
  · obtain ⟨pre, b, hd, hb⟩ := hw.2 hs
    rw [if_neg hs, hd]
    simp only [List.getLast?_append, List.getLast?_singleton, Option.some_or, List.dropLast_concat]
    rw [if_neg hc, if_neg hc2]
    refine key pre b.toNat b.toNat_lt hb ?_
    exact (Writer.bits_partial hs hw.1 hd).symm

theorem Writer.extend_ok {w : Writer} {b : Bytes} (hs : w.start = 0) :
    (w.extend b).Ok ∧ (w.extend b).bits = w.bits ++ bitsOf b ∧ (w.extend b).start = 0 := by
  refine ⟨⟨?_, ?_⟩, ?_, ?_⟩
  · simp [Writer.extend, hs]
  · intro h; exact absurd hs h
  · rw [Writer.bits_aligned hs, Writer.bits_aligned (w := w.extend b) hs]; simp [Writer.extend]
  · exact hs

/-- the bytes an integer is encoded to, as bits -/
theorem toBytesBE_bits {v : Int} {n : Nat} {s : Bool} {b : Bytes} (h : toBytesBE v n s = .ok b) :
    b.length = n ∧ bitsOf b = toBitsZ (8 * n) v := by
  unfold toBytesBE at h
  cases s
  · simp only [Bool.false_eq_true, if_false] at h
    split at h
    · cases h
      rename_i hv
      refine ⟨by simp, ?_⟩
      rw [bitsOf_natToBE, toBitsZ, Int.emod_eq_of_lt hv.1 (by simpa using hv.2)]
    · cases h
  · simp only [if_true] at h
    split at h
    · rename_i hn; subst hn
      split at h
      · cases h; simp [toBitsZ]
      · cases h
    · split at h
      · cases h
        refine ⟨by simp, ?_⟩
        rw [bitsOf_natToBE, toBitsZ]
      · cases h

theorem Writer.addBytes_ok {w : Writer} {v : Int} {n : Nat} {s : Bool} {b : Bytes} (hs : w.start = 0)
    (h : toBytesBE v n s = .ok b) :
    ∃ w', w.addBytes v n s = .ok w' ∧ w'.Ok ∧ w'.bits = w.bits ++ toBitsZ (8 * n) v ∧ w'.start = 0 := by
  refine ⟨⟨w.data ++ b, 0⟩, by simp [Writer.addBytes, h], ⟨by simp, by simp⟩, ?_, rfl⟩
  rw [Writer.bits_aligned rfl, Writer.bits_aligned hs, bitsOf_append, (toBytesBE_bits h).2]

end Model

import Verif.Spec.Bits
/-! Helper lemmas about bit strings. -/
namespace Spec

@[simp] theorem toBits_zero (v : Nat) : toBits 0 v = [] := rfl
theorem toBits_succ (n v : Nat) : toBits (n+1) v = (v / 2 ^ n % 2 == 1) :: toBits n v := rfl

@[simp] theorem toBits_length (n v : Nat) : (toBits n v).length = n := by
  induction n with
  | zero => rfl
  | succ n ih => simp [toBits_succ, ih]

theorem ofBits_lt (l : List Bool) : ofBits l < 2 ^ l.length := by
  induction l with
  | nil => simp [ofBits]
  | cons b bs ih =>
    simp only [ofBits, List.length_cons, Nat.pow_succ]
    split <;> omega

theorem ofBits_toBits (n v : Nat) : ofBits (toBits n v) = v % 2 ^ n := by
  induction n with
  | zero => simp [ofBits, Nat.mod_one]
  | succ n ih =>
    simp only [toBits_succ, ofBits, toBits_length, ih, beq_iff_eq]
    have h1 : v % 2 ^ (n+1) = v % 2^n + 2^n * (v / 2^n % 2) := by
      rw [Nat.pow_succ, Nat.mod_mul]
    rw [h1]
    have : v / 2 ^ n % 2 = 0 ∨ v / 2 ^ n % 2 = 1 := by omega
    rcases this with h | h <;> simp [h] <;> omega

theorem ofBits_toBits_of_lt {n v : Nat} (h : v < 2 ^ n) : ofBits (toBits n v) = v := by
  rw [ofBits_toBits, Nat.mod_eq_of_lt h]

theorem ofBits_append (a b : List Bool) : ofBits (a ++ b) = ofBits a * 2 ^ b.length + ofBits b := by
  induction a with
  | nil => simp [ofBits]
  | cons x xs ih =>
    simp only [List.cons_append, ofBits, ih, List.length_append, Nat.pow_add]
    split
    · rw [Nat.add_mul]; omega
    · rw [Nat.zero_add, Nat.zero_add]

theorem toBits_congr {n v w : Nat} (h : v % 2 ^ n = w % 2 ^ n) : toBits n v = toBits n w := by
  induction n with
  | zero => rfl
  | succ n ih =>
    have e1 : v % 2 ^ (n+1) % 2^n = v % 2^n := Nat.mod_mod_of_dvd _ ⟨2, by rw [Nat.pow_succ]⟩
    have e2 : w % 2 ^ (n+1) % 2^n = w % 2^n := Nat.mod_mod_of_dvd _ ⟨2, by rw [Nat.pow_succ]⟩
    rw [toBits_succ, toBits_succ, ih (by rw [← e1, ← e2, h])]
    have f1 : v % 2 ^ (n+1) / 2^n = v / 2^n % 2 := by rw [Nat.pow_succ, Nat.mod_mul_right_div_self]
    have f2 : w % 2 ^ (n+1) / 2^n = w / 2^n % 2 := by rw [Nat.pow_succ, Nat.mod_mul_right_div_self]
    rw [← f1, ← f2, h]

theorem toBits_mod (n v : Nat) : toBits n (v % 2 ^ n) = toBits n v := toBits_congr (by simp)

theorem toBits_ofBits (l : List Bool) : toBits l.length (ofBits l) = l := by
  induction l with
  | nil => rfl
  | cons b bs ih =>
    simp only [List.length_cons, toBits_succ, ofBits]
    have hlt := ofBits_lt bs
    have hpos : 0 < 2 ^ bs.length := Nat.two_pow_pos _
    congr 1
    · cases b
      · simp [Nat.div_eq_of_lt hlt]
      · simp [Nat.add_div_left, hpos, Nat.div_eq_of_lt hlt]
    · rw [← toBits_mod]
      have : ((if b = true then 2 ^ bs.length else 0) + ofBits bs) % 2 ^ bs.length = ofBits bs := by
        cases b <;> simp [Nat.mod_eq_of_lt hlt]
      rw [this]; exact ih

theorem ofBits_inj {a b : List Bool} (hl : a.length = b.length) (h : ofBits a = ofBits b) : a = b := by
  rw [← toBits_ofBits a, ← toBits_ofBits b, hl, h]

theorem toBits_add (m n v : Nat) : toBits (m + n) v = toBits m (v / 2 ^ n) ++ toBits n v := by
  induction m with
  | zero => simp
  | succ m ih =>
    rw [show m + 1 + n = (m + n) + 1 by omega, toBits_succ, toBits_succ, ih]
    simp [Nat.div_div_eq_div_mul, ← Nat.pow_add, Nat.add_comm]

@[simp] theorem bitsOf_nil : bitsOf [] = [] := rfl
@[simp] theorem bitsOf_cons (b : UInt8) (bs : Bytes) : bitsOf (b :: bs) = toBits 8 b.toNat ++ bitsOf bs := by
  simp [bitsOf]
@[simp] theorem bitsOf_append (a b : Bytes) : bitsOf (a ++ b) = bitsOf a ++ bitsOf b := by
  simp [bitsOf]
@[simp] theorem bitsOf_length (a : Bytes) : (bitsOf a).length = 8 * a.length := by
  induction a with
  | nil => rfl
  | cons x xs ih => simp [ih]; omega

theorem bitsOf_drop (a : Bytes) (k : Nat) : (bitsOf a).drop (8 * k) = bitsOf (a.drop k) := by
  induction k generalizing a with
  | zero => simp
  | succ k ih =>
    cases a with
    | nil => simp
    | cons x xs =>
      rw [show 8 * (k+1) = 8 + 8 * k by omega, ← List.drop_drop]
      simp only [bitsOf_cons]
      rw [List.drop_append_of_le_length (by simp), List.drop_eq_nil_of_le (as := toBits 8 _) (by simp),
        List.nil_append, ih, List.drop_succ_cons]

theorem bitsOf_take (a : Bytes) (k : Nat) : (bitsOf a).take (8 * k) = bitsOf (a.take k) := by
  induction k generalizing a with
  | zero => simp
  | succ k ih =>
    cases a with
    | nil => simp
    | cons x xs =>
      rw [show 8 * (k+1) = 8 + 8 * k by omega]
      simp only [bitsOf_cons, List.take_succ_cons]
      rw [List.take_append, toBits_length]
      simp [ih]
      rw [List.take_of_length_le (by simp)]

theorem toBits8_inj {a b : UInt8} (h : toBits 8 a.toNat = toBits 8 b.toNat) : a = b := by
  have := congrArg ofBits h
  rw [ofBits_toBits_of_lt a.toNat_lt, ofBits_toBits_of_lt b.toNat_lt] at this
  exact UInt8.toNat_inj.mp this

theorem bitsOf_inj {a b : Bytes} (h : bitsOf a = bitsOf b) : a = b := by
  induction a generalizing b with
  | nil =>
    cases b with
    | nil => rfl
    | cons y ys => have := congrArg List.length h; simp at this; omega
  | cons x xs ih =>
    cases b with
    | nil => have := congrArg List.length h; simp at this
    | cons y ys =>
      simp only [bitsOf_cons] at h
      obtain ⟨h1, h2⟩ := List.append_inj h (by simp)
      rw [toBits8_inj h1, ih h2]

theorem beNat_eq (b : Bytes) : beNat b = ofBits (bitsOf b) := by
  induction b with
  | nil => rfl
  | cons x xs ih =>
    rw [bitsOf_cons, ofBits_append, ofBits_toBits_of_lt x.toNat_lt, beNat, ih, bitsOf_length, Nat.pow_mul]

theorem beNat_lt (b : Bytes) : beNat b < 256 ^ b.length := by
  rw [beNat_eq]
  have := ofBits_lt (bitsOf b)
  rwa [bitsOf_length, Nat.pow_mul] at this

end Spec

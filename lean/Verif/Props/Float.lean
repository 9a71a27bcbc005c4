import Verif.Lemmas.Float
import Verif.Props.Meter
/-!
# Property theorems C142: readings as floats
-/
namespace Props.Float
open Spec Model Model.Float

theorem signedOf_abs (b : Bytes) (hb : b.length ≤ 6) : |signedOf (8 * b.length) (beNat b)| ≤ 2 ^ 47 := by
  have h1 : beNat b < 2 ^ (8 * b.length) := by have := beNat_lt b; rwa [show 256 = 2 ^ 8 from rfl, ← pow_mul] at this
  have h2 : 2 ^ (8 * b.length - 1) ≤ 2 ^ 47 := Nat.pow_le_pow_right (by norm_num) (by omega)
  unfold signedOf
  rcases Nat.eq_zero_or_pos b.length with h0 | h0
  · rw [h0] at h1 ⊢
    have : beNat b = 0 := by omega
    simp [this]
  · have h3 : (2 : ℤ) ^ (8 * b.length) = 2 * 2 ^ (8 * b.length - 1) := by
      rw [← pow_succ']; congr 1; omega
    have h1' : (beNat b : ℤ) < 2 ^ (8 * b.length) := by exact_mod_cast h1
    have h2' : (2 : ℤ) ^ (8 * b.length - 1) ≤ 2 ^ 47 := by exact_mod_cast h2
    split
    · rename_i h
      have : 2 * (beNat b : ℤ) < 2 ^ (8 * b.length) := by exact_mod_cast h
      rw [abs_of_nonneg (by positivity)]
      linarith
    · rename_i h
      have : (2 : ℤ) ^ (8 * b.length) ≤ 2 * beNat b := by exact_mod_cast not_lt.mp h
      rw [abs_of_nonpos (by linarith)]
      linarith

/-- **C142.** The value of a sensor report with a mantissa of at most six bytes is the float closest to what the node sent. -/
theorem C142_sensor (ty : UInt8) (mant tl : Bytes) (precision scale : Nat) (hp : precision < 8) (hs : scale < 4) (hm : mant.length ≤ 6) :
    ∃ m v f, decode (0x31 :: 0x05 :: ty :: UInt8.ofNat (precision * 32 + scale * 8 + mant.length) :: (mant ++ tl)) = .ok m ∧
      m.attr "sensorValue" = some v ∧ ofVal v = some f ∧ Closest ((signedOf (8 * mant.length) (beNat mant) : ℚ) / 10 ^ precision) f := by
  obtain ⟨m, h1, -, -, h2⟩ := C22_sensor_report ty mant tl precision scale hp hs (by omega)
  exact ⟨m, _, _, h1, h2, rfl, (value_any (lt_of_le_of_lt (signedOf_abs mant hm) (by norm_num)) hp).1⟩

/-- **C142.** The same for the value of a meter report. -/
theorem C142_meter (high rate ty : Nat) (mant tl : Bytes) (precision scale : Nat) (t1 t2 : UInt8) (hh : high < 2) (hr : rate < 4) (hty : ty < 32) (hp : precision < 8)
    (hs : scale < 4) (hm : mant.length ≤ 6) :
    ∃ m v f, decode (0x32 :: 0x02 :: UInt8.ofNat (high * 128 + rate * 32 + ty) :: UInt8.ofNat (precision * 32 + scale * 8 + mant.length) :: (mant ++ t1 :: t2 :: tl)) = .ok m ∧
      m.attr "meterValue" = some v ∧ ofVal v = some f ∧ Closest ((signedOf (8 * mant.length) (beNat mant) : ℚ) / 10 ^ precision) f := by
  obtain ⟨m, h1, -, -, -, h2, -⟩ := Props.Meter.C105_report high rate ty mant tl precision scale t1 t2 hh hr hty hp hs (by omega)
  exact ⟨m, _, _, h1, h2, rfl, (value_any (lt_of_le_of_lt (signedOf_abs mant hm) (by norm_num)) hp).1⟩

/-- **C142.** Nothing is lost: readings with mantissas of at most six bytes are the same float exactly if they are the same number. -/
theorem C142_distinct (b1 b2 : Bytes) (p1 p2 : Nat) (h1 : b1.length ≤ 6) (h2 : b2.length ≤ 6) (hp1 : p1 < 8) (hp2 : p2 < 8) :
    value (signedOf (8 * b1.length) (beNat b1)) p1 = value (signedOf (8 * b2.length) (beNat b2)) p2 ↔
      (signedOf (8 * b1.length) (beNat b1) : ℚ) / 10 ^ p1 = (signedOf (8 * b2.length) (beNat b2) : ℚ) / 10 ^ p2 := by
  have a1 := signedOf_abs b1 h1
  have a2 := signedOf_abs b2 h2
  generalize signedOf (8 * b1.length) (beNat b1) = m1 at *
  generalize signedOf (8 * b2.length) (beNat b2) = m2 at *
  clear h1 h2
  constructor
  · wlog hle : p1 ≤ p2 generalizing m1 m2 p1 p2
    · exact fun h => (this p2 p1 hp2 hp1 m2 a2 m1 a1 (by omega) h.symm).symm
    intro he
    have e1 := (value_any (lt_of_le_of_lt a1 (by norm_num)) hp1).2
    have e2 := (value_any (lt_of_le_of_lt a2 (by norm_num)) hp2).2
    rw [he] at e1
    obtain ⟨k, rfl⟩ := Nat.exists_eq_add_of_le hle
    by_contra hne
    have hd : (1 : ℚ) ≤ |(m1 * 10 ^ k - m2 : ℚ)| := by
      have : (1 : ℤ) ≤ |m1 * 10 ^ k - m2| := by
        apply Int.one_le_abs
        intro h0
        apply hne
        have h0' : (m2 : ℚ) = m1 * 10 ^ k := by
          have : m2 = m1 * 10 ^ k := by omega
          rw [this]; push_cast; ring
        rw [h0', pow_add]
        field_simp
      exact_mod_cast this
    have hP : (0 : ℚ) < 10 ^ (p1 + k) := by positivity
    have hx : (m1 : ℚ) / 10 ^ p1 = (m1 * 10 ^ k) / 10 ^ (p1 + k) := by rw [pow_add]; field_simp
    have hax : |(m1 : ℚ)| / 10 ^ p1 = |(m1 * 10 ^ k : ℚ)| / 10 ^ (p1 + k) := by
      rw [abs_mul, abs_of_pos (show (0 : ℚ) < 10 ^ k by positivity), pow_add]; field_simp
    rw [hx, hax] at e1
    have tri : |(m1 * 10 ^ k : ℚ) - m2| / 10 ^ (p1 + k) ≤ |(m1 * 10 ^ k : ℚ)| / 10 ^ (p1 + k) / 2 ^ 53 + |(m2 : ℚ)| / 10 ^ (p1 + k) / 2 ^ 53 := by
      have := abs_sub_le ((m1 * 10 ^ k : ℚ) / 10 ^ (p1 + k)) (value m2 (p1 + k)) ((m2 : ℚ) / 10 ^ (p1 + k))
      rw [abs_sub_comm _ (value m2 (p1 + k)), ← sub_div, abs_div, abs_of_pos hP] at this
      linarith
    have tri' : |(m1 * 10 ^ k : ℚ) - m2| ≤ (|(m1 * 10 ^ k : ℚ)| + |(m2 : ℚ)|) / 2 ^ 53 := by
      rw [div_le_iff₀ hP] at tri
      refine le_trans tri (le_of_eq ?_)
      field_simp
    have hb : |(m2 : ℚ)| ≤ 2 ^ 47 := by exact_mod_cast a2
    have hc : |(m1 * 10 ^ k : ℚ)| ≤ |(m1 * 10 ^ k : ℚ) - m2| + |(m2 : ℚ)| := by
      have := abs_add_le ((m1 * 10 ^ k : ℚ) - m2) m2
      rwa [sub_add_cancel] at this
    rw [le_div_iff₀ (by norm_num)] at tri'
    linarith
  · intro he
    rw [value_eq (lt_of_le_of_lt a1 (by norm_num)), value_eq (lt_of_le_of_lt a2 (by norm_num)), he]

/-- **C142.** Rounded to the number of decimals that was sent, the float is the number that was sent. -/
theorem C142_digits (b : Bytes) (p : Nat) (h : b.length ≤ 6) (hp : p < 8) :
    |value (signedOf (8 * b.length) (beNat b)) p * 10 ^ p - signedOf (8 * b.length) (beNat b)| < 1 / 2 := by
  have a := signedOf_abs b h
  generalize signedOf (8 * b.length) (beNat b) = m at *
  have e := (value_any (lt_of_le_of_lt a (by norm_num)) hp).2
  have hP : (0 : ℚ) < 10 ^ p := by positivity
  have hb : |(m : ℚ)| ≤ 2 ^ 47 := by exact_mod_cast a
  have key : value m p * 10 ^ p - m = (value m p - m / 10 ^ p) * 10 ^ p := by field_simp
  rw [key, abs_mul, abs_of_pos hP]
  have := mul_le_mul_of_nonneg_right e hP.le
  rw [div_right_comm, div_mul_cancel₀ _ hP.ne'] at this
  have h53 : |(m : ℚ)| / 2 ^ 53 ≤ 2 ^ 47 / 2 ^ 53 := div_le_div_of_nonneg_right hb (by norm_num)
  have : (2 : ℚ) ^ 47 / 2 ^ 53 < 1 / 2 := by norm_num
  linarith

/-- 22.9 is not a float: the closest one is a little less. 22.90 is the same, -1.5 is exact. With seven bytes, which the standard does not have, numbers are lost. -/
example : value 229 1 = 3222888483337011 / 2 ^ 47 ∧ value 2290 2 = value 229 1 ∧ value (-15) 1 = -3 / 2 ∧ value 0 7 = 0 ∧
    value (2 ^ 53 + 1) 0 = value (2 ^ 53) 0 ∧ value (2 ^ 53 - 1) 0 = 2 ^ 53 - 1 := by decide +kernel

end Props.Float

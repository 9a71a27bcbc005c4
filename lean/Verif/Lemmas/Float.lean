import Mathlib.Tactic.Linarith
import Mathlib.Tactic.Positivity
import Mathlib.Tactic.Ring
import Mathlib.Tactic.FieldSimp
import Mathlib.Tactic.NormNum
import Mathlib.Algebra.Order.Field.Power
import Verif.Model.Float
import Verif.Spec.Float
/-! Helper lemmas: rounding to floats. -/
namespace Model.Float
open Spec

theorem halfEven_near (n d : ℕ) (hd : 0 < d) : |(halfEven n d : ℚ) - n / d| ≤ 1 / 2 ∧ (2 * (n % d) ≠ d → |(halfEven n d : ℚ) - n / d| < 1 / 2) := by
  have h : (n : ℚ) = d * (n / d : ℕ) + (n % d : ℕ) := by exact_mod_cast (Nat.div_add_mod n d).symm
  have hr : n % d < d := Nat.mod_lt _ hd
  have hd' : (0 : ℚ) < d := by exact_mod_cast hd
  have key : ∀ k : ℕ, (k : ℚ) - n / d = (d * ((k : ℚ) - (n / d : ℕ)) - (n % d : ℕ)) / d := by
    intro k; rw [h]; field_simp; ring
  generalize hq : n / d = q at *
  generalize hm : n % d = r at *
  have hr' : (r : ℚ) < d := by exact_mod_cast hr
  have hr0 : (0 : ℚ) ≤ r := by positivity
  unfold halfEven
  rw [hq, hm]
  have low : ∀ (P : Prop), (P → (2 : ℚ) * r ≤ d) → P → |(q : ℚ) - n / d| ≤ 1 / 2 := by
    intro P hP p
    have := hP p
    rw [key, sub_self, mul_zero, zero_sub, abs_div, abs_neg, abs_of_nonneg hr0, abs_of_pos hd', div_le_iff₀ hd']; linarith
  have high : (d : ℚ) ≤ 2 * r → |((q + 1 : ℕ) : ℚ) - n / d| ≤ 1 / 2 := by
    intro p
    rw [key]; push_cast
    rw [show (d : ℚ) * (q + 1 - q) - r = d - r by ring, abs_div, abs_of_nonneg (by linarith), abs_of_pos hd', div_le_iff₀ hd']; linarith
  have low' : (2 : ℚ) * r < d → |(q : ℚ) - n / d| < 1 / 2 := by
    intro p
    rw [key, sub_self, mul_zero, zero_sub, abs_div, abs_neg, abs_of_nonneg hr0, abs_of_pos hd', div_lt_iff₀ hd']; linarith
  have high' : (d : ℚ) < 2 * r → |((q + 1 : ℕ) : ℚ) - n / d| < 1 / 2 := by
    intro p
    rw [key]; push_cast
    rw [show (d : ℚ) * (q + 1 - q) - r = d - r by ring, abs_div, abs_of_nonneg (by linarith), abs_of_pos hd', div_lt_iff₀ hd']; linarith
  split
  · rename_i h1
    have h1' : (2 : ℚ) * r < d := by exact_mod_cast h1
    exact ⟨(low' h1').le, fun _ => low' h1'⟩
  · split
    · rename_i h1
      have h1' : (d : ℚ) < 2 * r := by exact_mod_cast h1
      exact ⟨(high' h1').le, fun _ => high' h1'⟩
    · rename_i h1 h2
      have e : 2 * r = d := by omega
      have e' : (2 : ℚ) * r = d := by exact_mod_cast e
      refine ⟨?_, fun h => absurd e h⟩
      split
      · exact low _ (fun h : (2 : ℚ) * r ≤ d => h) e'.le
      · exact high e'.ge

/-- `n / d` in units of `2^e`. -/
theorem scaled (n d : ℕ) (hd : 0 < d) (e : ℤ) : ((n * 2 ^ (-e).toNat : ℕ) : ℚ) / ((d * 2 ^ e.toNat : ℕ) : ℚ) = n / d / 2 ^ e := by
  have hd' : (d : ℚ) ≠ 0 := by positivity
  rcases le_total 0 e with h | h
  · obtain ⟨k, rfl⟩ := Int.eq_ofNat_of_zero_le h
    simp [div_div]
  · obtain ⟨k, hk⟩ := Int.exists_eq_neg_ofNat h
    subst hk
    simp [zpow_neg, div_mul_eq_mul_div]

theorem expo_range (n d : ℕ) (hn : 0 < n) (hd : 0 < d) : 2 ^ 52 ≤ (n : ℚ) / d / 2 ^ expo n d ∧ (n : ℚ) / d / 2 ^ expo n d < 2 ^ 53 := by
  have hd' : (0 : ℚ) < d := by exact_mod_cast hd
  have n1 : (2 : ℚ) ^ n.log2 ≤ n := by exact_mod_cast Nat.log2_self_le (by omega)
  have n2 : (n : ℚ) < 2 ^ (n.log2 + 1) := by exact_mod_cast Nat.lt_log2_self
  have d1 : (2 : ℚ) ^ d.log2 ≤ d := by exact_mod_cast Nat.log2_self_le (by omega)
  have d2 : (d : ℚ) < 2 ^ (d.log2 + 1) := by exact_mod_cast Nat.lt_log2_self
  unfold expo
  simp only
  generalize n.log2 = a at *
  generalize d.log2 = b at *
  have hE : (2 : ℚ) ^ ((a : ℤ) - b - 53) = 2 ^ a / 2 ^ b / 2 ^ 53 := by
    rw [zpow_sub₀ (by norm_num), zpow_sub₀ (by norm_num)]; norm_cast
  have s := scaled n d hd ((a : ℤ) - b - 53)
  generalize (a : ℤ) - b - 53 = e at *
  have hden : (0 : ℚ) < ((d * 2 ^ e.toNat : ℕ) : ℚ) := by positivity
  have hpa : (0 : ℚ) < 2 ^ a := by positivity
  have hpb : (0 : ℚ) < 2 ^ b := by positivity
  have hpe : (0 : ℚ) < 2 ^ e := by positivity
  rw [pow_succ] at n2 d2
  have lo : (2 : ℚ) ^ 52 ≤ (n : ℚ) / d / 2 ^ e := by
    rw [hE, le_div_iff₀ (by positivity), le_div_iff₀ hd']
    rw [show (2 : ℚ) ^ 52 * (2 ^ a / 2 ^ b / 2 ^ 53) * d = 2 ^ a * (d / (2 ^ b * 2)) by field_simp]
    have : (d : ℚ) / (2 ^ b * 2) ≤ 1 := by rw [div_le_one (by positivity)]; exact d2.le
    nlinarith
  have hi : (n : ℚ) / d / 2 ^ e < 2 ^ 54 := by
    rw [hE, div_lt_iff₀ (by positivity), div_lt_iff₀ hd']
    rw [show (2 : ℚ) ^ 54 * (2 ^ a / 2 ^ b / 2 ^ 53) * d = 2 ^ a * 2 * (d / 2 ^ b) by field_simp]
    have : 1 ≤ (d : ℚ) / 2 ^ b := by rw [le_div_iff₀ hpb]; linarith
    nlinarith
  have hiff : n * 2 ^ (-e).toNat < 2 ^ 53 * (d * 2 ^ e.toNat) ↔ (n : ℚ) / d / 2 ^ e < 2 ^ 53 := by
    rw [← s, div_lt_iff₀ hden]; exact_mod_cast Iff.rfl
  split
  · rename_i h; exact ⟨lo, hiff.mp h⟩
  · rename_i h
    have h' := not_lt.mp (fun x => h (hiff.mpr x))
    rw [zpow_add₀ (by norm_num), zpow_one, ← div_div]
    constructor
    · rw [le_div_iff₀ (by norm_num)]; linarith
    · rw [div_lt_iff₀ (by norm_num)]; linarith

/-- A rounded positive number: `M * 2^e` with `M` the natural number closest to the number in units of `2^e`. -/
theorem roundPos_near (n d : ℕ) (hn : 0 < n) (hd : 0 < d) :
    ∃ (M : ℕ) (e : ℤ) (t : ℚ), roundPos n d = M * 2 ^ e ∧ (n : ℚ) / d = t * 2 ^ e ∧ 2 ^ 52 ≤ t ∧ t < 2 ^ 53 ∧ |(M : ℚ) - t| ≤ 1 / 2 ∧
      ((∀ k : ℕ, 2 * t ≠ (2 * k + 1 : ℕ)) → |(M : ℚ) - t| < 1 / 2) := by
  obtain ⟨lo, hi⟩ := expo_range n d hn hd
  have s := scaled n d hd (expo n d)
  have hD : 0 < d * 2 ^ (expo n d).toNat := by positivity
  obtain ⟨a, b⟩ := halfEven_near (n * 2 ^ (-expo n d).toNat) (d * 2 ^ (expo n d).toNat) hD
  rw [s] at a b
  refine ⟨_, expo n d, _, rfl, ?_, lo, hi, a, fun h => b fun htie => ?_⟩
  · rw [div_mul_cancel₀]; positivity
  · generalize n * 2 ^ (-expo n d).toNat = N at *
    generalize d * 2 ^ (expo n d).toNat = D at *
    refine h (N / D) ?_
    rw [← s]
    have hN := Nat.div_add_mod N D
    have : 2 * N = D * (2 * (N / D) + 1) := by
      calc 2 * N = 2 * (D * (N / D) + N % D) := by rw [hN]
        _ = D * (2 * (N / D)) + 2 * (N % D) := by ring
        _ = D * (2 * (N / D) + 1) := by rw [htie]; ring
    have hD' : (D : ℚ) ≠ 0 := by positivity
    rw [← mul_div_assoc, div_eq_iff hD']
    rw [mul_comm _ (D : ℚ)]
    exact_mod_cast this

/-- The distance of the floats from a positive number `t * 2^e`. -/
theorem double_far {t : ℚ} {e : ℤ} {M : ℕ} (lo : 2 ^ 52 ≤ t) (hM : |(M : ℚ) - t| ≤ 1 / 2) (g : ℚ) (hg : IsDouble g) :
    |(M : ℚ) * 2 ^ e - t * 2 ^ e| ≤ |g - t * 2 ^ e| ∧ (|(M : ℚ) - t| < 1 / 2 → g ≠ M * 2 ^ e → |(M : ℚ) * 2 ^ e - t * 2 ^ e| < |g - t * 2 ^ e|) := by
  have hpe : (0 : ℚ) < 2 ^ e := by positivity
  obtain ⟨m, e', hm, -, -, rfl⟩ := hg
  -- in units of 2^e
  have unit : ∀ u : ℚ, |u * 2 ^ e - t * 2 ^ e| = |u - t| * 2 ^ e := by
    intro u; rw [← sub_mul, abs_mul, abs_of_pos hpe]
  have whole : ∀ k : ℤ, |(M : ℚ) - t| ≤ |(k : ℚ) - t| ∧ (|(M : ℚ) - t| < 1 / 2 → k ≠ M → |(M : ℚ) - t| < |(k : ℚ) - t|) := by
    intro k
    by_cases hk : k = M
    · subst hk; exact ⟨le_of_eq (by push_cast; rfl), fun _ h => absurd rfl h⟩
    · have h1 : (1 : ℚ) ≤ |(k : ℚ) - M| := by
        have : (1 : ℤ) ≤ |k - M| := Int.one_le_abs (sub_ne_zero.mpr hk)
        exact_mod_cast this
      have h2 : |(k : ℚ) - M| ≤ |(k : ℚ) - t| + |(M : ℚ) - t| := by
        have := abs_sub_le (k : ℚ) t M
        rwa [abs_sub_comm t] at this
      exact ⟨by linarith, fun h _ => by linarith⟩
  rcases le_or_gt e e' with he | he
  · obtain ⟨k, hk⟩ := Int.le.dest he
    have hz : (m : ℚ) * 2 ^ e' = ((m * 2 ^ k : ℤ) : ℚ) * 2 ^ e := by
      rw [← hk, zpow_add₀ (by norm_num)]; push_cast; rw [zpow_natCast]; ring
    rw [hz, unit, unit]
    obtain ⟨w1, w2⟩ := whole (m * 2 ^ k)
    refine ⟨mul_le_mul_of_nonneg_right w1 hpe.le, fun h hne => mul_lt_mul_of_pos_right (w2 h ?_) hpe⟩
    intro hx
    exact hne (by rw [hx]; push_cast; rfl)
  · -- g < 2^52 * 2^e ≤ t * 2^e
    have hm' : (m : ℚ) < 2 ^ 53 := by
      have : m < 2 ^ 53 := lt_of_le_of_lt (le_abs_self m) hm
      exact_mod_cast this
    have hle : (2 : ℚ) ^ e' ≤ 2 ^ (e - 1) := zpow_le_zpow_right₀ (by norm_num) (by omega)
    rw [zpow_sub₀ (by norm_num), zpow_one] at hle
    have hpe' : (0 : ℚ) < 2 ^ e' := by positivity
    have hg : (m : ℚ) * 2 ^ e' < 2 ^ 52 * 2 ^ e := by
      calc (m : ℚ) * 2 ^ e' < 2 ^ 53 * 2 ^ e' := mul_lt_mul_of_pos_right hm' hpe'
        _ ≤ 2 ^ 53 * (2 ^ e / 2) := by apply mul_le_mul_of_nonneg_left hle; norm_num
        _ = 2 ^ 52 * 2 ^ e := by ring
    have hlt : |(M : ℚ) * 2 ^ e - t * 2 ^ e| < |(m : ℚ) * 2 ^ e' - t * 2 ^ e| := by
      have h1 := mul_le_mul_of_nonneg_right (whole (2 ^ 52)).1 hpe.le
      rw [← unit, ← unit] at h1
      rw [show ((2 ^ 52 : ℤ) : ℚ) = 2 ^ 52 by norm_num] at h1
      have hle2 : (2 : ℚ) ^ 52 * 2 ^ e ≤ t * 2 ^ e := mul_le_mul_of_nonneg_right lo hpe.le
      rw [abs_of_nonpos (by linarith : (2 : ℚ) ^ 52 * 2 ^ e - t * 2 ^ e ≤ 0)] at h1
      rw [abs_of_nonpos (by linarith : (m : ℚ) * 2 ^ e' - t * 2 ^ e ≤ 0)]
      linarith
    exact ⟨hlt.le, fun _ _ => hlt⟩

theorem isDouble_of {M : ℕ} {e : ℤ} (hM : M ≤ 2 ^ 53) (h1 : -1074 ≤ e) (h2 : e ≤ 970) : IsDouble (M * 2 ^ e) := by
  rcases Nat.lt_or_eq_of_le hM with h | h
  · exact ⟨M, e, by rw [Nat.abs_cast]; exact_mod_cast h, h1, by omega, by push_cast; rfl⟩
  · refine ⟨2 ^ 52, e + 1, by norm_num, by omega, by omega, ?_⟩
    rw [h, zpow_add₀ (by norm_num)]; push_cast; ring

theorem _root_.Spec.IsDouble.neg {x : ℚ} (h : IsDouble x) : IsDouble (-x) := by
  obtain ⟨m, e, h1, h2, h3, rfl⟩ := h
  exact ⟨-m, e, by rwa [abs_neg], h2, h3, by push_cast; ring⟩

theorem fl_neg (x : ℚ) : fl (-x) = -fl x := by
  unfold fl
  simp only [Rat.num_neg_eq_neg_num, Rat.neg_den, Int.natAbs_neg]
  split
  · rename_i h; rw [if_pos (by omega)]; simp
  · rename_i h
    rw [if_neg (show ¬ x.num = 0 by omega)]
    split
    · rw [if_neg (by omega)]
    · rw [if_pos (by omega), neg_neg]

theorem fl_pos {x : ℚ} (h : 0 < x) : fl x = roundPos x.num.natAbs x.den ∧ 0 < x.num.natAbs ∧ (x.num.natAbs : ℚ) / x.den = x := by
  have hn : 0 < x.num := Rat.num_pos.mpr h
  refine ⟨by rw [fl, if_neg (by omega), if_neg (by omega)], by omega, ?_⟩
  have : ((x.num.natAbs : ℕ) : ℚ) = (x.num : ℚ) := by
    rw [← Int.cast_natCast, Int.natAbs_of_nonneg hn.le]
  rw [this, Rat.num_div_den]

/-- No float is as close to the number as another one. -/
def NoTie (x : ℚ) : Prop := ∀ (k : ℕ) (e : ℤ), 2 ^ 53 ≤ 2 * k + 1 → 2 * x ≠ (2 * k + 1 : ℕ) * 2 ^ e

theorem fl_near {x : ℚ} (h1 : 2 ^ (-1000 : ℤ) ≤ x) (h2 : x < 2 ^ (1000 : ℤ)) :
    IsDouble (fl x) ∧ (∀ g, IsDouble g → |fl x - x| ≤ |g - x|) ∧ |fl x - x| ≤ x / 2 ^ 53 ∧ (NoTie x → ∀ g, IsDouble g → g ≠ fl x → |fl x - x| < |g - x|) := by
  have h0 : 0 < x := lt_of_lt_of_le (by positivity) h1
  obtain ⟨e1, e2, e3⟩ := fl_pos h0
  obtain ⟨M, e, t, r1, r2, lo, hi, near, tie⟩ := roundPos_near x.num.natAbs x.den e2 x.den_pos
  rw [e3] at r2
  rw [r1] at e1
  clear r1 e2 e3
  have hpe : (0 : ℚ) < 2 ^ e := by positivity
  have b1 : -1074 ≤ e := by
    by_contra hlt
    have : (2 : ℚ) ^ (53 + e) ≤ 2 ^ (-1000 : ℤ) := zpow_le_zpow_right₀ (by norm_num) (by omega)
    rw [zpow_add₀ (by norm_num)] at this
    have h53 : ((2 : ℚ) ^ (53 : ℤ)) = 2 ^ 53 := by norm_cast
    rw [h53] at this
    have hx : x < 2 ^ 53 * 2 ^ e := by rw [r2]; exact mul_lt_mul_of_pos_right hi hpe
    linarith
  have b2 : e ≤ 970 := by
    by_contra hlt
    have : (2 : ℚ) ^ (1000 : ℤ) ≤ 2 ^ (52 + e) := zpow_le_zpow_right₀ (by norm_num) (by omega)
    rw [zpow_add₀ (by norm_num)] at this
    have h52 : ((2 : ℚ) ^ (52 : ℤ)) = 2 ^ 52 := by norm_cast
    rw [h52] at this
    have hx : 2 ^ 52 * 2 ^ e ≤ x := by rw [r2]; exact mul_le_mul_of_nonneg_right lo hpe.le
    linarith
  have hM : M ≤ 2 ^ 53 := by
    have : (M : ℚ) < 2 ^ 53 + 1 := by
      have := (abs_le.mp near).2
      linarith
    have : M < 2 ^ 53 + 1 := by exact_mod_cast this
    omega
  rw [e1]
  refine ⟨isDouble_of hM b1 b2, fun g hg => ?_, ?_, fun hn g hg hne => ?_⟩
  · rw [r2]; exact (double_far lo near g hg).1
  · rw [r2, ← sub_mul, abs_mul, abs_of_pos hpe, mul_div_right_comm]
    apply mul_le_mul_of_nonneg_right _ hpe.le
    rw [le_div_iff₀ (by norm_num)]
    linarith
  · rw [r2] at hn ⊢
    refine (double_far lo near g hg).2 (tie fun k hk => ?_) hne
    refine hn k e ?_ (by rw [← hk]; ring)
    have : ((2 ^ 53 : ℕ) : ℚ) ≤ ((2 * k + 1 : ℕ) : ℚ) := by rw [← hk]; push_cast; linarith
    exact_mod_cast this

theorem fl_zero : fl 0 = 0 := by simp [fl]

/-- A float is not changed by rounding. -/
theorem fl_exact {x : ℚ} (h1 : 2 ^ (-1000 : ℤ) ≤ x) (h2 : x < 2 ^ (1000 : ℤ)) (hx : IsDouble x) : fl x = x := by
  have := (fl_near h1 h2).2.1 x hx
  rw [sub_self, abs_zero] at this
  exact sub_eq_zero.mp (abs_nonpos_iff.mp this)

theorem fl_nat {n : ℕ} (h : n < 2 ^ 53) : fl (n : ℚ) = n := by
  rcases Nat.eq_zero_or_pos n with rfl | hn
  · exact_mod_cast fl_zero
  · have h1 : (1 : ℚ) ≤ n := by exact_mod_cast hn
    have h2 : (n : ℚ) < 2 ^ 53 := by exact_mod_cast h
    refine fl_exact (le_trans ?_ h1) (lt_trans h2 ?_) ⟨n, 0, by rw [Nat.abs_cast]; exact_mod_cast h, by norm_num, by norm_num, by simp⟩
    · rw [← zpow_zero (2 : ℚ)]; exact zpow_le_zpow_right₀ (by norm_num) (by norm_num)
    · rw [← zpow_natCast]; exact zpow_lt_zpow_right₀ (by norm_num) (by norm_num)

theorem fl_int {m : ℤ} (h : |m| < 2 ^ 53) : fl (m : ℚ) = m := by
  rw [Int.abs_eq_natAbs] at h
  have h' : m.natAbs < 2 ^ 53 := by exact_mod_cast h
  have e := Int.natAbs_eq m
  generalize m.natAbs = n at *
  rcases e with rfl | rfl
  · rw [Int.cast_natCast, fl_nat h']
  · rw [Int.cast_neg, Int.cast_natCast, fl_neg, fl_nat h']

theorem odd_dvd {k a m c : ℕ} (h : 2 ^ a * m = (2 * k + 1) * c) : 2 * k + 1 ∣ m := by
  have hc : Nat.Coprime (2 * k + 1) (2 ^ a) := by
    apply Nat.Coprime.pow_right
    simp [Nat.Coprime]
  exact hc.dvd_of_dvd_mul_left ⟨c, h⟩

theorem noTie {m : ℕ} (hm0 : 0 < m) (hm : m < 2 ^ 53) (p : ℕ) : NoTie ((m : ℚ) / 10 ^ p) := by
  intro k e hk h
  have hdvd : 2 * k + 1 ∣ m := by
    rcases le_total 0 e with he | he
    · obtain ⟨a, rfl⟩ := Int.eq_ofNat_of_zero_le he
      rw [← mul_div_assoc, div_eq_iff (by positivity), zpow_natCast, mul_assoc] at h
      refine odd_dvd (a := 1) (c := 2 ^ a * 10 ^ p) ?_
      exact_mod_cast h
    · obtain ⟨a, ha⟩ := Int.exists_eq_neg_ofNat he
      subst ha
      rw [zpow_neg, zpow_natCast, ← div_eq_mul_inv, ← mul_div_assoc, div_eq_div_iff (by positivity) (by positivity)] at h
      refine odd_dvd (a := a + 1) (c := 10 ^ p) ?_
      rw [pow_succ]
      have : 2 * m * 2 ^ a = (2 * k + 1) * 10 ^ p := by exact_mod_cast h
      rw [← this]; ring
  have := Nat.le_of_dvd hm0 hdvd
  omega

theorem value_neg {m : ℤ} (p : ℕ) : value (-m) p = -value m p := by
  simp only [value, Int.cast_neg, fl_neg, neg_div]

theorem value_eq {m : ℤ} (h : |m| < 2 ^ 53) (p : ℕ) : value m p = fl (m / 10 ^ p) := by rw [value, fl_int h]

/-- What is known about the float of a positive mantissa. -/
theorem value_pos {m : ℕ} (h0 : 0 < m) (h : m < 2 ^ 53) {p : ℕ} (hp : p < 8) :
    Closest ((m : ℚ) / 10 ^ p) (value m p) ∧ |value m p - m / 10 ^ p| ≤ m / 10 ^ p / 2 ^ 53 := by
  have hpow : (10 : ℚ) ^ p ≤ 10 ^ 7 := pow_le_pow_right₀ (by norm_num) (by omega)
  have h10 : (1 : ℚ) ≤ 10 ^ p := one_le_pow₀ (by norm_num)
  have h1 : (1 : ℚ) ≤ m := by exact_mod_cast h0
  have h2 : (m : ℚ) < 2 ^ 53 := by exact_mod_cast h
  have r1 : (2 : ℚ) ^ (-1000 : ℤ) ≤ (m : ℚ) / 10 ^ p := by
    have : (2 : ℚ) ^ (-1000 : ℤ) ≤ 2 ^ (-24 : ℤ) := zpow_le_zpow_right₀ (by norm_num) (by norm_num)
    refine le_trans this ?_
    rw [le_div_iff₀ (by positivity)]
    have e : (2 : ℚ) ^ (-24 : ℤ) = 1 / 16777216 := by rw [zpow_neg]; norm_num
    rw [e]
    linarith
  have r2 : (m : ℚ) / 10 ^ p < 2 ^ (1000 : ℤ) := by
    have : (2 : ℚ) ^ (53 : ℤ) < 2 ^ (1000 : ℤ) := zpow_lt_zpow_right₀ (by norm_num) (by norm_num)
    refine lt_trans ?_ this
    rw [div_lt_iff₀ (by positivity)]
    have e : (2 : ℚ) ^ (53 : ℤ) = 2 ^ 53 := by norm_cast
    rw [e]
    nlinarith
  have hv : value m p = fl ((m : ℚ) / 10 ^ p) := by
    have := value_eq (m := (m : ℤ)) (by rw [Nat.abs_cast]; exact_mod_cast h) p
    simpa using this
  obtain ⟨a, -, b, c⟩ := fl_near r1 r2
  rw [hv]
  exact ⟨⟨a, c (noTie h0 h p)⟩, b⟩

theorem closest_neg {x f : ℚ} (h : Closest x f) : Closest (-x) (-f) := by
  refine ⟨h.1.neg, fun g hg hne => ?_⟩
  have := h.2 (-g) hg.neg (fun e => hne (by rw [← e, neg_neg]))
  rw [← abs_neg] at this
  rw [← abs_neg (g - -x)]
  convert this using 2 <;> ring

theorem closest_zero : Closest 0 0 := by
  refine ⟨⟨0, 0, by norm_num, by norm_num, by norm_num, by simp⟩, fun g _ hne => ?_⟩
  simpa using hne

/-- What is known about the float of any mantissa. -/
theorem value_any {m : ℤ} (h : |m| < 2 ^ 53) {p : ℕ} (hp : p < 8) :
    Closest ((m : ℚ) / 10 ^ p) (value m p) ∧ |value m p - m / 10 ^ p| ≤ |(m : ℚ)| / 10 ^ p / 2 ^ 53 := by
  rw [Int.abs_eq_natAbs] at h
  have h' : m.natAbs < 2 ^ 53 := by exact_mod_cast h
  have e := Int.natAbs_eq m
  generalize m.natAbs = n at *
  rcases Nat.eq_zero_or_pos n with h0 | h0
  · have : m = 0 := by omega
    subst this
    simp [value, fl_zero, closest_zero]
  · obtain ⟨a, b⟩ := value_pos h0 h' hp
    rcases e with rfl | rfl
    · rw [Int.cast_natCast, Nat.abs_cast]
      exact ⟨a, b⟩
    · rw [value_neg, Int.cast_neg, Int.cast_natCast, abs_neg, Nat.abs_cast, neg_div]
      refine ⟨closest_neg a, ?_⟩
      rw [← abs_neg]
      convert b using 2
      ring

end Model.Float

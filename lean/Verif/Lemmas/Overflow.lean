import Verif.Lemmas.Compose
/-! Helper lemmas: `addBits` with a value that does not fit. -/
namespace Model
open Spec

theorem addBits_neg {w : Writer} {v : Int} {n : Nat} (hw : w.Ok) (hv : v < 0) : w.addBits v n = .error .value := by
  unfold Writer.addBits
  by_cases hs : w.start = 0
  · simp [hs, hv]
  · obtain ⟨pre, b, hd, _⟩ := hw.2 hs
    simp [hs, hv, hd]

theorem addBits_big {w : Writer} {v n : Nat} (hw : w.Ok) (hv : 2 ^ (w.start + n) ≤ v) :
    w.addBits (v : Int) n = .error .value := by
  have key : ∀ b : Nat, w.start + n ≤ 8 → b ||| (v <<< (8 - w.start - n)) > 255 := by
    intro b h8
    have h1 : v <<< (8 - w.start - n) ≤ b ||| (v <<< (8 - w.start - n)) := Nat.right_le_or
    have h2 : 256 ≤ v <<< (8 - w.start - n) := by
      rw [Nat.shiftLeft_eq]
      calc 256 = 2 ^ (w.start + n) * 2 ^ (8 - w.start - n) := by
            rw [← Nat.pow_add, show w.start + n + (8 - w.start - n) = 8 by omega]
        _ ≤ _ := Nat.mul_le_mul_right _ hv
    omega
  have hn : ¬ ((v : Int) < 0) := by omega
  unfold Writer.addBits
  simp only [Int.toNat_natCast, hn, if_false]
  by_cases h8 : w.start + n > 8
  · by_cases hs : w.start = 0
    · simp only [if_pos hs, if_pos h8]
    · obtain ⟨pre, b, hd, _⟩ := hw.2 hs
      simp [hs, h8, hd]
  · by_cases hs : w.start = 0
    · rw [if_pos hs, if_neg h8, if_pos (key 0 (by omega))]
    · obtain ⟨pre, b, hd, _⟩ := hw.2 hs
      rw [if_neg hs, hd]
      simp only [List.getLast?_append, List.getLast?_singleton, Option.some_or]
      rw [if_neg h8, if_pos (key _ (by omega))]

theorem or_split (b v n k : Nat) :
    b ||| (v <<< k) = (b ||| ((v / 2 ^ n) <<< (n + k))) ||| ((v % 2 ^ n) <<< k) := by
  apply Nat.eq_of_testBit_eq
  intro i
  simp only [Nat.testBit_or, Nat.testBit_shiftLeft, Nat.testBit_div_two_pow, Nat.testBit_mod_two_pow, ge_iff_le]
  by_cases h1 : k ≤ i
  · by_cases h2 : n + k ≤ i
    · have e1 : i - (n + k) + n = i - k := by omega
      have e2 : ¬ (i - k < n) := by omega
      simp [h1, h2, e1, e2]
    · have e2 : i - k < n := by omega
      simp [h1, h2, e2]
  · have h2 : ¬ (n + k ≤ i) := by omega
    simp [h1, h2]

/-- A value that is too large by less than the filled part of the byte is written modulo `2^n`; only bits
already written to the same byte may change. -/
theorem addBits_over {w : Writer} {v n : Nat} (hw : w.Ok) (hn : 0 < n) (h8 : w.start + n ≤ 8)
    (hv : v < 2 ^ (w.start + n)) :
    ∃ w' q, w.addBits (v : Int) n = .ok w' ∧ w'.Ok ∧ w'.start = (w.start + n) % 8 ∧
      w'.bits = q ++ toBits n (v % 2 ^ n) ∧ q.length = w.bits.length ∧
      q.take (w.bits.length - w.start) = w.bits.take (w.bits.length - w.start) := by
  have hmod : v % 2 ^ n < 2 ^ n := Nat.mod_lt _ (Nat.two_pow_pos _)
  by_cases hs : w.start = 0
  · rw [hs, Nat.zero_add] at hv
    obtain ⟨w', e, ok, b, s⟩ := Writer.addBits_ok (v := v) hw hn h8 hv
    exact ⟨w', w.bits, e, ok, s, by rw [b, Nat.mod_eq_of_lt hv], rfl, rfl⟩
  · obtain ⟨pre, b, hd, hb⟩ := hw.2 hs
    have hhi : v / 2 ^ n < 2 ^ w.start := by
      rw [Nat.div_lt_iff_lt_mul (Nat.two_pow_pos _), ← Nat.pow_add]; exact hv
    have hsh : (v / 2 ^ n) <<< (8 - w.start) < 256 := by
      rw [Nat.shiftLeft_eq]
      calc v / 2 ^ n * 2 ^ (8 - w.start) < 2 ^ w.start * 2 ^ (8 - w.start) :=
            Nat.mul_lt_mul_of_pos_right hhi (Nat.two_pow_pos _)
        _ = 256 := by rw [← Nat.pow_add, show w.start + (8 - w.start) = 8 by have := hw.1; omega]
    have hor : b.toNat ||| ((v / 2 ^ n) <<< (8 - w.start)) < 2 ^ 8 := Nat.or_lt_two_pow b.toNat_lt hsh
    let b2 : UInt8 := UInt8.ofNat (b.toNat ||| ((v / 2 ^ n) <<< (8 - w.start)))
    have hb2 : b2.toNat = b.toNat ||| ((v / 2 ^ n) <<< (8 - w.start)) := by
      simp only [b2, UInt8.toNat_ofNat']; exact Nat.mod_eq_of_lt hor
    let w2 : Writer := ⟨pre ++ [b2], w.start⟩
    have hw2 : w2.Ok := by
      refine ⟨hw.1, fun _ => ⟨pre, b2, rfl, ?_⟩⟩
      simp only [w2]
      rw [hb2, Nat.or_mod_two_pow, hb, Nat.zero_or, Nat.shiftLeft_eq, Nat.mul_mod_left]
    obtain ⟨w', e, ok, hbits, hst⟩ := Writer.addBits_ok (v := v % 2 ^ n) hw2 hn h8 hmod
    have hq1 := Writer.bits_partial hs hw.1 hd
    have hq2 : w2.bits = bitsOf pre ++ toBits w.start (b2.toNat / 2 ^ (8 - w.start)) :=
      Writer.bits_partial (w := w2) hs hw.1 rfl
    refine ⟨w', w2.bits, ?_, ok, hst, hbits, by rw [hq1, hq2]; simp, ?_⟩
    · rw [← e]
      unfold Writer.addBits
      simp only [w2, hd, hs, if_false, Int.toNat_natCast, List.getLast?_append, List.getLast?_singleton, Option.some_or,
        List.dropLast_concat, hb2]
      have e1 := or_split b.toNat v n (8 - w.start - n)
      rw [show n + (8 - w.start - n) = 8 - w.start by omega] at e1
      rw [← e1]
      have h1 : ¬ ((v : Int) < 0) := by omega
      have h2 : ¬ (((v % 2 ^ n : Nat) : Int) < 0) := by omega
      rw [if_neg h1, if_neg h2]
    · rw [hq1, hq2]
      simp

theorem slotsOf_append {fs : List Field} {pre post : List Slot} {s : Slot} (h : slotsOf fs = some (pre ++ s :: post)) :
    ∃ f1 f f2, fs = f1 ++ f :: f2 ∧ slotsOf f1 = some pre ∧ slotOf f = some s ∧ slotsOf f2 = some post := by
  induction fs generalizing pre with
  | nil => simp [slotsOf] at h
  | cons g fs ih =>
    simp only [slotsOf] at h
    split at h
    · rename_i t ts h1 h2
      have h := Option.some.inj h
      cases pre with
      | nil =>
        rw [List.nil_append, List.cons.injEq] at h
        exact ⟨[], g, fs, rfl, rfl, by rw [h1, h.1], by rw [h2, h.2]⟩
      | cons p pre =>
        rw [List.cons_append, List.cons.injEq] at h
        obtain ⟨f1, f, f2, e1, e2, e3, e4⟩ := ih (pre := pre) (by rw [h2, h.2])
        exact ⟨g :: f1, f, f2, by rw [e1]; rfl, by simp [slotsOf, h1, e2, h.1], e3, e4⟩
    · cases h

theorem composeFields_append {attrs : Dict String Val} {cmd : Option (Py Bytes)} {f1 f2 : List Field} {w w1 : Writer}
    (h : composeFields attrs cmd f1 w = .ok w1) :
    composeFields attrs cmd (f1 ++ f2) w = composeFields attrs cmd f2 w1 := by
  induction f1 generalizing w with
  | nil => cases h; rfl
  | cons g f1 ih =>
    simp only [composeFields, List.cons_append, bind, Except.bind] at h ⊢
    split at h
    · cases h
    · exact ih h

theorem slotsWire_append {a : Args} {p q : List Slot} {x y : List Bool} (h1 : slotsWire a p = some x)
    (h2 : slotsWire a q = some y) : slotsWire a (p ++ q) = some (x ++ y) := by
  induction p generalizing x with
  | nil => cases h1; simpa
  | cons s p ih =>
    simp only [slotsWire] at h1
    split at h1
    · rename_i u v hu hv
      cases h1
      simp [slotsWire, hu, ih hv]
    · cases h1

theorem aligned_append {o : Nat} {f1 f2 : List Field} :
    aligned o (f1 ++ f2) = (aligned o f1 && aligned (f1.foldl (fun o f => nextOff o f.ty) o) f2) := by
  induction f1 generalizing o with
  | nil => simp [aligned]
  | cons g f1 ih => simp [aligned, ih, Bool.and_assoc]

end Model

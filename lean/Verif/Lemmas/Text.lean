import Verif.Model.Text
import Verif.Spec.Text
import Verif.Lemmas.Bits
/-! Helper lemmas: decimal text. -/
namespace Model
open Spec

theorem digit_toNat {d : Nat} (h : d < 10) : (digit d).toNat = 48 + d := by
  match d, h with
  | 0, _ | 1, _ | 2, _ | 3, _ | 4, _ | 5, _ | 6, _ | 7, _ | 8, _ | 9, _ => rfl

theorem natStrF_eq (f : Nat) : ∀ g n, n ≤ f → n ≤ g → natStrF f n = natStrF g n := by
  induction f with
  | zero =>
    intro g n hf hg
    have : n = 0 := by omega
    subst this
    cases g <;> rfl
  | succ f ih =>
    intro g n hf hg
    cases g with
    | zero =>
      have : n = 0 := by omega
      subst this
      rfl
    | succ g =>
      rw [natStrF, natStrF]
      split
      · rfl
      · rw [ih g (n / 10) (by omega) (by omega)]

theorem natStr_eq (n : Nat) : natStr n = if n < 10 then [digit n] else natStr (n / 10) ++ [digit (n % 10)] := by
  rw [natStr, natStrF_eq n (n + 1) n (Nat.le_refl _) (by omega), natStrF]
  split
  · rfl
  · rw [natStr, natStrF_eq n (n / 10) (n / 10) (by omega) (Nat.le_refl _)]

/-- all characters are decimal digits -/
def Digits (s : Str) : Prop := ∀ c ∈ s, 48 ≤ c.toNat ∧ c.toNat ≤ 57

theorem natStr_digits (n : Nat) : Digits (natStr n) := by
  induction n using Nat.strongRecOn with
  | ind n ih =>
    rw [natStr_eq]
    split
    · rename_i h
      intro c hc
      simp only [List.mem_singleton] at hc
      subst hc
      rw [digit_toNat h]; omega
    · intro c hc
      simp only [List.mem_append, List.mem_singleton] at hc
      rcases hc with hc | rfl
      · exact ih (n / 10) (by omega) c hc
      · rw [digit_toNat (by omega)]; omega

theorem natStr_ne_nil (n : Nat) : natStr n ≠ [] := by
  rw [natStr_eq]; split <;> simp

/-- value of a digit string -/
def decVal (acc : Nat) (s : Str) : Nat := s.foldl (fun a c => a * 10 + (c.toNat - 48)) acc

theorem decVal_append (acc : Nat) (s t : Str) : decVal acc (s ++ t) = decVal (decVal acc s) t := by
  simp [decVal]

theorem decVal_natStr (n : Nat) : decVal 0 (natStr n) = n := by
  induction n using Nat.strongRecOn with
  | ind n ih =>
    rw [natStr_eq]
    split
    · rename_i h
      simp [decVal, digit_toNat h]
    · rw [decVal_append, ih (n / 10) (by omega)]
      simp only [decVal, List.foldl, digit_toNat (d := n % 10) (by omega)]
      omega

theorem decVal_zeros (k : Nat) (s : Str) : decVal 0 (List.replicate k '0' ++ s) = decVal 0 s := by
  induction k with
  | zero => rfl
  | succ k ih => rw [List.replicate_succ, List.cons_append]; exact ih

theorem digitsLoop_digits (s : Str) (acc : Nat) (last : Bool) (h : Digits s) :
    digitsLoop s acc last = if last || !s.isEmpty then some (decVal acc s) else none := by
  induction s generalizing acc last with
  | nil => cases last <;> rfl
  | cons c cs ih =>
    have hc := h c (by simp)
    have hne : c ≠ '_' := by
      intro e; subst e
      revert hc; decide
    have hcs : Digits cs := fun x hx => h x (by simp [hx])
    simp [digitsLoop, hne, digitVal, hc, ih _ true hcs, decVal]

theorem not_space {c : Char} (h : 48 ≤ c.toNat ∧ c.toNat ≤ 57) : isSpace c = false := by
  have : c ≠ ' ' := by intro e; subst e; revert h; decide
  simp [isSpace, this]; omega

theorem dropWhile_digits (s : Str) (h : ∀ c ∈ s, isSpace c = false) : s.dropWhile isSpace = s := by
  cases s with
  | nil => rfl
  | cons c cs => rw [List.dropWhile_cons_of_neg]; simp [h c (by simp)]

theorem strip_eq (s : Str) (h : ∀ c ∈ s, isSpace c = false) : strip s = s := by
  rw [strip, dropWhile_digits s h, dropWhile_digits s.reverse (fun c hc => h c (by simpa using hc)), List.reverse_reverse]

theorem pyInt_digits (s : Str) (h : Digits s) (hn : s ≠ []) : pyInt s = .ok (decVal 0 s : Int) := by
  rw [pyInt, strip_eq s (fun c hc => not_space (h c hc))]
  split
  · exact absurd (h '-' (by simp)) (by decide)
  · exact absurd (h '+' (by simp)) (by decide)
  · rw [digitsLoop_digits _ _ _ h]
    cases s with
    | nil => exact absurd rfl hn
    | cons c cs => rfl

/-- Spaces, tabs, line feeds, vertical tabs, form feeds and carriage returns around a number are ignored. -/
theorem pyInt_space (u s v : Str) (hu : ∀ c ∈ u, c.toNat ∈ [32, 9, 10, 11, 12, 13]) (hv : ∀ c ∈ v, c.toNat ∈ [32, 9, 10, 11, 12, 13])
    (h : Digits s) (hn : s ≠ []) : pyInt (u ++ s ++ v) = .ok (decVal 0 s : Int) := by
  have sp : ∀ c : Char, c.toNat ∈ [32, 9, 10, 11, 12, 13] → isSpace c = true := by
    intro c hc
    simp only [List.mem_cons, List.not_mem_nil, or_false] at hc
    rcases hc with hc | hc
    · have : c = ' ' := Char.ext (UInt32.toNat_inj.mp hc)
      simp [isSpace, this]
    · simp only [isSpace, Bool.or_eq_true, Bool.and_eq_true, decide_eq_true_eq]
      omega
  have dw : ∀ (u w : Str), (∀ c ∈ u, c.toNat ∈ [32, 9, 10, 11, 12, 13]) → (u ++ w).dropWhile isSpace = w.dropWhile isSpace := by
    intro u w hu
    induction u with
    | nil => rfl
    | cons c cs ih =>
      rw [List.cons_append, List.dropWhile_cons_of_pos (sp c (hu c (by simp)))]
      exact ih fun x hx => hu x (by simp [hx])
  have hd : ∀ c ∈ s, isSpace c = false := fun c hc => not_space (h c hc)
  have hs : strip (u ++ s ++ v) = s := by
    have hrev : (s ++ v).reverse.dropWhile isSpace = s.reverse := by
      rw [List.reverse_append, dw v.reverse s.reverse (fun c hc => hv c (by simpa using hc)),
        dropWhile_digits s.reverse (fun c hc => hd c (by simpa using hc))]
    have hfst : (s ++ v).dropWhile isSpace = s ++ v := by
      cases s with
      | nil => exact absurd rfl hn
      | cons c cs => rw [List.cons_append, List.dropWhile_cons_of_neg]; simp [hd c (by simp)]
    rw [strip, List.append_assoc, dw u _ hu, hfst, hrev, List.reverse_reverse]
  have e := pyInt_digits s h hn
  rw [pyInt, strip_eq s hd] at e
  rw [pyInt, hs]
  exact e

/-- A single underscore between two digits is ignored. -/
theorem pyInt_underscore (s t : Str) (hs : Digits s) (ht : Digits t) (hs0 : s ≠ []) (ht0 : t ≠ []) :
    pyInt (s ++ '_' :: t) = pyInt (s ++ t) := by
  have key : ∀ (s : Str) (acc : Nat) (last : Bool), Digits s → (s ≠ [] ∨ last = true) →
      digitsLoop (s ++ '_' :: t) acc last = some (decVal acc (s ++ t)) := by
    intro s
    induction s with
    | nil =>
      intro acc last _ hl
      have hl : last = true := by simpa using hl
      subst hl
      cases t with
      | nil => exact absurd rfl ht0
      | cons c cs =>
        have := digitsLoop_digits (c :: cs) acc false ht
        simpa [digitsLoop] using this
    | cons c cs ih =>
      intro acc last hd _
      have hc := hd c (by simp)
      have hne : c ≠ '_' := by intro e; subst e; revert hc; decide
      have hcs : Digits cs := fun x hx => hd x (by simp [hx])
      simp [digitsLoop, hne, digitVal, hc, ih _ true hcs (.inr rfl), decVal]
  have hst : Digits (s ++ t) := fun c hc => by
    rcases List.mem_append.mp hc with h | h
    · exact hs c h
    · exact ht c h
  rw [pyInt_digits (s ++ t) hst (by simp [hs0]), pyInt, strip_eq _ (by
    intro c hc
    rcases List.mem_append.mp hc with h | h
    · exact not_space (hs c h)
    · rcases List.mem_cons.mp h with h | h
      · subst h; decide
      · exact not_space (ht c h))]
  cases s with
  | nil => exact absurd rfl hs0
  | cons c cs =>
    have hc := hs c (by simp)
    have h1 : c ≠ '-' := by intro e; subst e; revert hc; decide
    have h2 : c ≠ '+' := by intro e; subst e; revert hc; decide
    have := key (c :: cs) 0 false hs (.inl (by simp))
    simp only [List.cons_append] at this ⊢
    split
    · rename_i e; injection e with e1; exact absurd e1 h1
    · rename_i e; injection e with e1; exact absurd e1 h2
    · rw [this]

theorem pyInt_natStr (n : Nat) : pyInt (natStr n) = .ok (n : Int) := by
  rw [pyInt_digits _ (natStr_digits n) (natStr_ne_nil n), decVal_natStr]

theorem pyInt_intStr (n : Int) : pyInt (intStr n) = .ok n := by
  rw [intStr]
  split
  · rename_i h
    have hd := natStr_digits n.natAbs
    rw [pyInt, strip_eq _ (by
      intro c hc
      simp only [List.mem_cons] at hc
      rcases hc with rfl | hc
      · decide
      · exact not_space (hd c hc))]
    simp only [digitsLoop_digits _ _ _ hd, decVal_natStr]
    rw [if_pos (by simp [natStr_ne_nil])]
    simp only [Except.ok.injEq]; omega
  · rw [pyInt_natStr]
    simp only [Except.ok.injEq]; omega

/-! ## splitting and joining -/

theorem pySplit_none (c : Char) (s : Str) (h : c ∉ s) : pySplit c s = [s] := by
  induction s with
  | nil => rfl
  | cons x xs ih =>
    simp only [List.mem_cons, not_or] at h
    rw [pySplit, if_neg (fun e => h.1 e.symm), ih h.2]

theorem pySplit_cons (c : Char) (s t : Str) (h : c ∉ s) : pySplit c (s ++ c :: t) = s :: pySplit c t := by
  induction s with
  | nil => simp [pySplit]
  | cons x xs ih =>
    simp only [List.mem_cons, not_or] at h
    rw [List.cons_append, pySplit, if_neg (fun e => h.1 e.symm), ih h.2]

theorem pySplit_join (c : Char) (l : List Str) (hl : l ≠ []) (h : ∀ s ∈ l, c ∉ s) : pySplit c (pyJoin c l) = l := by
  induction l with
  | nil => exact absurd rfl hl
  | cons s l ih =>
    cases l with
    | nil => exact pySplit_none c s (h s (by simp))
    | cons t l =>
      rw [pyJoin, pySplit_cons c s _ (h s (by simp)), ih (by simp) (fun x hx => h x (by simp [hx]))]
      simp

theorem pySplit1_none (c : Char) (s : Str) (h : c ∉ s) : pySplit1 c s = none := by
  induction s with
  | nil => rfl
  | cons x xs ih =>
    simp only [List.mem_cons, not_or] at h
    rw [pySplit1, if_neg (fun e => h.1 e.symm), ih h.2]

theorem pySplit1_cons (c : Char) (s t : Str) (h : c ∉ s) : pySplit1 c (s ++ c :: t) = some (s, t) := by
  induction s with
  | nil => simp [pySplit1]
  | cons x xs ih =>
    simp only [List.mem_cons, not_or] at h
    rw [List.cons_append, pySplit1, if_neg (fun e => h.1 e.symm), ih h.2]

theorem digits_not_mem {s : Str} (h : Digits s) {c : Char} (hc : ¬ (48 ≤ c.toNat ∧ c.toNat ≤ 57)) : c ∉ s := fun hm => hc (h c hm)

/-! ## fixed width -/

/-- decimal text padded with zeros -/
def padk (k n : Nat) : Str := List.replicate (k - (natStr n).length) '0' ++ natStr n

theorem padk_succ (k n : Nat) : padk (k + 1) n = padk k (n / 10) ++ [digit (n % 10)] ∨ (n < 10 ∧ padk (k + 1) n = List.replicate k '0' ++ [digit n]) := by
  by_cases h : n < 10
  · right
    refine ⟨h, ?_⟩
    rw [padk, natStr_eq, if_pos h]; simp
  · left
    rw [padk, natStr_eq, if_neg h, padk]
    simp

theorem fixedDec_succ (k n : Nat) : fixedDec (k + 1) n = fixedDec k (n / 10) ++ [digitChar (n % 10)] := by
  simp only [fixedDec, List.range_succ, List.map_append, List.map_cons, List.map_nil]
  congr 1
  · apply List.map_congr_left
    intro i hi
    simp only [List.mem_range] at hi
    have : k + 1 - 1 - i = (k - 1 - i) + 1 := by omega
    rw [this, Nat.pow_succ, Nat.mul_comm, ← Nat.div_div_eq_div_mul]
  · simp

theorem fixedDec_zero (k : Nat) : fixedDec k 0 = List.replicate k '0' := by
  simp only [fixedDec, Nat.zero_div, Nat.zero_mod]
  rw [List.map_const', List.length_range]; rfl

theorem padk_eq (k n : Nat) (hk : 0 < k) (h : n < 10 ^ k) : padk k n = fixedDec k n := by
  induction k generalizing n with
  | zero => omega
  | succ k ih =>
    rw [fixedDec_succ]
    by_cases h10 : n < 10
    · rcases padk_succ k n with e | ⟨-, e⟩
      · rw [padk, natStr_eq, if_pos h10, Nat.div_eq_of_lt h10, fixedDec_zero, Nat.mod_eq_of_lt h10]; simp; rfl
      · rw [e, Nat.div_eq_of_lt h10, fixedDec_zero, Nat.mod_eq_of_lt h10]; rfl
    · have hk0 : 0 < k := by
        rcases Nat.eq_zero_or_pos k with rfl | h'
        · simp at h; omega
        · exact h'
      rcases padk_succ k n with e | ⟨h', -⟩
      · rw [e, ih (n / 10) hk0 (by rw [Nat.pow_succ] at h; omega)]; rfl
      · exact absurd h' h10

theorem pad5_eq {n : Nat} (h : n < 65536) : pad5 n = fixedDec 5 n := padk_eq 5 n (by omega) (by omega)

theorem pad5_digits (n : Nat) : Digits (pad5 n) := by
  intro c hc
  simp only [pad5, List.mem_append, List.mem_replicate] at hc
  rcases hc with ⟨-, rfl⟩ | hc
  · decide
  · exact natStr_digits n c hc

theorem pyInt_pad5 (n : Nat) : pyInt (pad5 n) = .ok (n : Int) := by
  rw [pyInt_digits _ (pad5_digits n) (by simp [pad5, natStr_ne_nil]), pad5, decVal_zeros, decVal_natStr]

theorem pyJoin_eq (c : Char) (l : List Str) : pyJoin c l = joined c l := by
  induction l with
  | nil => rfl
  | cons s l ih => cases l with
    | nil => rfl
    | cons t l => rw [pyJoin, joined, ih]; all_goals simp

theorem word_eq (a b : UInt8) : (a.toNat <<< 8) ||| b.toNat = a.toNat * 256 + b.toNat := by
  have hb := UInt8.toNat_lt b
  rw [Nat.shiftLeft_eq, show (2:Nat)^8 = 256 from rfl, Nat.mul_comm]
  exact (Nat.two_pow_add_eq_or_of_lt (i := 8) hb a.toNat).symm

theorem dskGroups_ok (key : Bytes) (h : key.length % 2 = 0) : dskGroups key = .ok ((words key).map pad5) := by
  match key with
  | [] => rfl
  | [_] => simp at h
  | a :: b :: l =>
    have ih := dskGroups_ok l (by simp at h; omega)
    simp only [dskGroups, ih, bind, Except.bind, pure, Except.pure, words, List.map_cons, word_eq]

theorem words_lt (key : Bytes) : ∀ w ∈ words key, w < 65536 := by
  match key with
  | [] => simp [words]
  | [_] => simp [words]
  | a :: b :: l =>
    intro w hw
    simp only [words, List.mem_cons] at hw
    rcases hw with rfl | hw
    · have := UInt8.toNat_lt a; have := UInt8.toNat_lt b; omega
    · exact words_lt l w hw

theorem words_length (key : Bytes) : (words key).length = key.length / 2 :=
  match key with
  | [] => rfl
  | [_] => by simp [words]
  | a :: b :: l => by simp only [words, List.length_cons, words_length l]; omega

theorem dskFields_ok (key : Bytes) (h : key.length % 2 = 0) : dskFields ((words key).map pad5) = .ok key := by
  match key with
  | [] => rfl
  | [_] => simp at h
  | a :: b :: l =>
    have ih := dskFields_ok l (by simp at h; omega)
    have ha := UInt8.toNat_lt a
    have hb := UInt8.toNat_lt b
    simp only [words, List.map_cons, dskFields, pyInt_pad5, ih, bind, Except.bind, pure, Except.pure, Except.ok.injEq,
      List.cons.injEq, and_true]
    constructor
    · rw [show ((((a.toNat * 256 + b.toNat : Nat) : Int) / 256 % 256).toNat) = a.toNat by omega]; simp
    · rw [show ((((a.toNat * 256 + b.toNat : Nat) : Int) % 256).toNat) = b.toNat by omega]; simp

end Model

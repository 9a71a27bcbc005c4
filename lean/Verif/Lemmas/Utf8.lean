import Verif.Lemmas.Text
import Verif.Lemmas.Zip
import Verif.Lemmas.ZipOptions
namespace Model
open Spec

theorem u8_small {n : Nat} (h : n < 256) : (UInt8.ofNat n).toNat = n := by simp [UInt8.toNat_ofNat']; omega

theorem isCont_ofNat {n : Nat} (h : n < 64) : isCont (UInt8.ofNat (0x80 + n)) = true := by
  have := u8_small (n := 0x80 + n) (by omega)
  simp only [isCont, Bool.and_eq_true, decide_eq_true_eq, UInt8.le_iff_toNat_le, UInt8.lt_iff_toNat_lt, this]
  simp; omega

theorem isCont_toNat {b : UInt8} (h : isCont b = true) : 0x80 ≤ b.toNat ∧ b.toNat < 0xC0 := by
  simpa [isCont, UInt8.le_iff_toNat_le, UInt8.lt_iff_toNat_lt] using h

theorem decodeUtf8_step (c : Nat) (hc : IsScalar c) (tl : Bytes) :
    decodeUtf8 (utf8 c ++ tl) = (do let t ← decodeUtf8 tl; pure (c :: t)) := by
  simp only [utf8]
  split
  · rename_i h
    have e := u8_small (n := c) (by omega)
    rw [List.singleton_append, decodeUtf8.eq_def]; simp only []; rw [if_pos (by rw [UInt8.lt_iff_toNat_lt, e]; simpa using h), e]
  · split
    · have e := u8_small (n := 0xC0 + c / 64) (by omega)
      have e2 := u8_small (n := 0x80 + c % 64) (by omega)
      have hl (k : UInt8) : (UInt8.ofNat (0xC0 + c / 64) < k) ↔ 0xC0 + c / 64 < k.toNat := by rw [UInt8.lt_iff_toNat_lt, e]
      rw [List.cons_append, List.singleton_append, decodeUtf8.eq_def]; simp only []
      rw [if_neg (by rw [hl]; simp <;> omega), if_neg (by rw [hl]; simp <;> omega), if_pos (by rw [hl]; simp <;> omega)]
      simp only [e, e2]
      have hcc : (0xC0 + c / 64 - 0xC0) * 64 + (0x80 + c % 64 - 0x80) = c := by omega
      rw [hcc, if_pos (by rw [isCont_ofNat (by omega)]; simp <;> omega)]
    · split
      · have e := u8_small (n := 0xE0 + c / 4096) (by omega)
        have e2 := u8_small (n := 0x80 + c / 64 % 64) (by omega)
        have e3 := u8_small (n := 0x80 + c % 64) (by omega)
        have hl (k : UInt8) : (UInt8.ofNat (0xE0 + c / 4096) < k) ↔ 0xE0 + c / 4096 < k.toNat := by rw [UInt8.lt_iff_toNat_lt, e]
        simp only [List.cons_append, List.nil_append]
        rw [decodeUtf8.eq_def]; simp only []
        rw [if_neg (by rw [hl]; simp <;> omega), if_neg (by rw [hl]; simp <;> omega), if_neg (by rw [hl]; simp <;> omega), if_pos (by rw [hl]; simp <;> omega)]
        simp only [e, e2, e3]
        have hcc : (0xE0 + c / 4096 - 0xE0) * 4096 + (0x80 + c / 64 % 64 - 0x80) * 64 + (0x80 + c % 64 - 0x80) = c := by omega
        rw [hcc, if_pos (by rw [isCont_ofNat (by omega), isCont_ofNat (by omega)]; simp [IsScalar] at * <;> omega)]
      · have hlt : c < 0x110000 := by simp [IsScalar] at hc; omega
        have e := u8_small (n := 0xF0 + c / 262144) (by omega)
        have e2 := u8_small (n := 0x80 + c / 4096 % 64) (by omega)
        have e3 := u8_small (n := 0x80 + c / 64 % 64) (by omega)
        have e4 := u8_small (n := 0x80 + c % 64) (by omega)
        have hl (k : UInt8) : (UInt8.ofNat (0xF0 + c / 262144) < k) ↔ 0xF0 + c / 262144 < k.toNat := by rw [UInt8.lt_iff_toNat_lt, e]
        simp only [List.cons_append, List.nil_append]
        rw [decodeUtf8.eq_def]; simp only []
        rw [if_neg (by rw [hl]; simp <;> omega), if_neg (by rw [hl]; simp <;> omega), if_neg (by rw [hl]; simp <;> omega), if_neg (by rw [hl]; simp <;> omega),
          if_pos (by rw [hl]; simp <;> omega)]
        simp only [e, e2, e3, e4]
        have hcc : (0xF0 + c / 262144 - 0xF0) * 262144 + (0x80 + c / 4096 % 64 - 0x80) * 4096 + (0x80 + c / 64 % 64 - 0x80) * 64 + (0x80 + c % 64 - 0x80) = c := by
          omega
        rw [hcc, if_pos (by rw [isCont_ofNat (by omega), isCont_ofNat (by omega), isCont_ofNat (by omega)]; simp <;> omega)]

theorem decodeUtf8_ok (l : List Nat) (h : ∀ c ∈ l, IsScalar c) : decodeUtf8 (utf8Text l) = .ok l := by
  induction l with
  | nil => simp [utf8Text, decodeUtf8]
  | cons c l ih =>
    rw [utf8Text, decodeUtf8_step c (h c (by simp)), ih (fun c hc => h c (by simp [hc]))]
    rfl

theorem u8_ofNat {b : UInt8} {n : Nat} (h : n = b.toNat) : UInt8.ofNat n = b := by subst h; simp

theorem decodeUtf8_inv (b : Bytes) : ∀ l, decodeUtf8 b = .ok l → (∀ c ∈ l, IsScalar c) ∧ b = utf8Text l := by
  fun_induction decodeUtf8 b with
  | case1 => rintro l ⟨⟩; simp [utf8Text]
  | case2 a rest ha ih =>
    intro l h
    obtain ⟨t, ht, h⟩ := bind_ok h
    cases h
    obtain ⟨i1, i2⟩ := ih t ht
    rw [UInt8.lt_iff_toNat_lt] at ha
    simp at ha
    refine ⟨by intro c hc; rcases List.mem_cons.mp hc with rfl | hc; · (left; omega)
               exact i1 c hc, ?_⟩
    simp [utf8Text, utf8, ha, ← i2]
  | case3 => rintro l ⟨⟩
  | case4 a h1 h2 h3 b rest c hc ih =>
    intro l h
    obtain ⟨t, ht, h⟩ := bind_ok h
    cases h
    obtain ⟨i1, i2⟩ := ih t ht
    simp only [UInt8.lt_iff_toNat_lt, Bool.and_eq_true, decide_eq_true_eq] at h1 h2 h3 hc
    simp at h1 h2 h3
    have hb := isCont_toNat hc.1
    have hcd : c = (a.toNat - 0xC0) * 64 + (b.toNat - 0x80) := by simp only [c]
    clear_value c
    refine ⟨by intro x hx; rcases List.mem_cons.mp hx with rfl | hx; · (left; omega)
               exact i1 x hx, ?_⟩
    rw [utf8Text, utf8, if_neg (by omega), if_pos (by omega), ← i2, u8_ofNat (b := a) (by omega), u8_ofNat (b := b) (by omega)]
    rfl
  | case5 => rintro l ⟨⟩
  | case6 => rintro l ⟨⟩
  | case7 a h1 h2 h3 h4 b b2 rest c hc ih =>
    intro l h
    obtain ⟨t, ht, h⟩ := bind_ok h
    cases h
    obtain ⟨i1, i2⟩ := ih t ht
    simp only [UInt8.lt_iff_toNat_lt, Bool.and_eq_true, decide_eq_true_eq] at h1 h2 h3 h4 hc
    simp at h1 h2 h3 h4
    obtain ⟨⟨⟨hb, hb2⟩, hlo⟩, hsur⟩ := hc
    have hb := isCont_toNat hb
    have hb2 := isCont_toNat hb2
    have hcd : c = (a.toNat - 0xE0) * 4096 + (b.toNat - 0x80) * 64 + (b2.toNat - 0x80) := by simp only [c]
    clear_value c
    simp only [Bool.not_eq_true', Bool.and_eq_false_iff, decide_eq_false_iff_not] at hsur
    refine ⟨by intro x hx; rcases List.mem_cons.mp hx with rfl | hx; · (simp only [IsScalar]; omega)
               exact i1 x hx, ?_⟩
    rw [utf8Text, utf8, if_neg (by omega), if_neg (by omega), if_pos (by omega), ← i2, u8_ofNat (b := a) (by omega), u8_ofNat (b := b) (by omega),
      u8_ofNat (b := b2) (by omega)]
    rfl
  | case8 => rintro l ⟨⟩
  | case9 => rintro l ⟨⟩
  | case10 a h1 h2 h3 h4 h5 b b2 b3 rest c hc ih =>
    intro l h
    obtain ⟨t, ht, h⟩ := bind_ok h
    cases h
    obtain ⟨i1, i2⟩ := ih t ht
    simp only [UInt8.lt_iff_toNat_lt, Bool.and_eq_true, decide_eq_true_eq] at h1 h2 h3 h4 h5 hc
    simp at h1 h2 h3 h4 h5
    obtain ⟨⟨⟨⟨hb, hb2⟩, hb3⟩, hlo⟩, hhi⟩ := hc
    have hb := isCont_toNat hb
    have hb2 := isCont_toNat hb2
    have hb3 := isCont_toNat hb3
    have hcd : c = (a.toNat - 0xF0) * 262144 + (b.toNat - 0x80) * 4096 + (b2.toNat - 0x80) * 64 + (b3.toNat - 0x80) := by simp only [c]
    clear_value c
    refine ⟨by intro x hx; rcases List.mem_cons.mp hx with rfl | hx; · (simp only [IsScalar]; omega)
               exact i1 x hx, ?_⟩
    rw [utf8Text, utf8, if_neg (by omega), if_neg (by omega), if_neg (by omega), ← i2, u8_ofNat (b := a) (by omega), u8_ofNat (b := b) (by omega),
      u8_ofNat (b := b2) (by omega), u8_ofNat (b := b3) (by omega)]
    rfl
  | case11 => rintro l ⟨⟩
  | case12 => rintro l ⟨⟩
  | case13 => rintro l ⟨⟩

end Model

import Verif.Lemmas.Roundtrip
import Verif.Spec.Sizes
/-! Helper lemmas: decoding an arbitrary packet and composing the result. -/
namespace Model
open Spec

/-- bits a field of fixed size takes; 0 for the fields that run to the end -/
def ftBits : FT → Nat
  | .uint n => 8 * n
  | .ubits n => n
  | .bits n => n
  | .flag => 1
  | .reserved n => n
  | .dsk => 128
  | .ipv6 => 128
  | _ => 0

def width : List Field → Nat
  | [] => 0
  | f :: fs => ftBits f.ty + width fs

def openEnd (fs : List Field) : Bool := fs.any (fun f => isRest f.ty)

/-- a fixed size field of one of the classes that have a slot -/
def isFixed (f : Field) : Prop := (slotOf f).isSome = true ∧ isRest f.ty = false ∧ 0 < ftBits f.ty

theorem Reader.rest_bytes {r : Reader} {n : Nat} (hs : r.start % 8 = 0) :
    r.rest.take (8 * n) = bitsOf ((r.data.drop (r.start / 8)).take n) := by
  obtain ⟨k, hk⟩ : ∃ k, r.start = 8 * k := ⟨r.start / 8, by omega⟩
  have hdiv : r.start / 8 = k := by omega
  rw [Reader.rest, hdiv, hk, bitsOf_drop, bitsOf_take]

theorem addBits_read {r : Reader} {n : Nat} (hn : 0 < n) (h8 : r.start % 8 + n ≤ 8)
    (hr : r.start + n ≤ 8 * r.data.length) :
    r.bits n = .ok (ofBits (r.rest.take n), r.advance n) ∧ ofBits (r.rest.take n) < 2 ^ n ∧
    ∀ w : Writer, w.Ok → w.start = r.start % 8 → ∃ w', w.addBits ((ofBits (r.rest.take n) : Nat) : Int) n = .ok w' ∧ w'.Ok ∧
      w'.bits = w.bits ++ r.rest.take n ∧ w'.start = (w.start + n) % 8 := by
  have hl : (r.rest.take n).length = n := by
    rw [List.length_take, Reader.rest_length]; omega
  have hlt : ofBits (r.rest.take n) < 2 ^ n := by
    have := ofBits_lt (r.rest.take n); rwa [hl] at this
  refine ⟨by rw [Reader.bits_ok (by omega) h8]; rfl, hlt, ?_⟩
  intro w hw hs
  obtain ⟨w', e, ok, b, s⟩ := Writer.addBits_ok hw hn (by omega) hlt
  refine ⟨w', e, ok, ?_, s⟩
  rw [b]
  congr 1
  conv => lhs; arg 1; rw [← hl]
  exact toBits_ofBits _

theorem field_read {f : Field} {r : Reader} (hf : isFixed f) (hal : alignOk (r.start % 8) f.ty = true)
    (hr : r.start + ftBits f.ty ≤ 8 * r.data.length) :
    ∃ v, deserVal f.ty r = .ok (v, r.advance (ftBits f.ty)) ∧ coerce f.ty v = .ok v ∧
      (r.start + ftBits f.ty) % 8 = nextOff (r.start % 8) f.ty ∧
      ∀ w : Writer, w.Ok → w.start = r.start % 8 → ∃ w', serVal v w = .ok w' ∧ w'.Ok ∧
        w'.bits = w.bits ++ r.rest.take (ftBits f.ty) ∧ w'.start = nextOff w.start f.ty := by
  obtain ⟨h1, h2, h3⟩ := hf
  obtain ⟨name, ty, ph, ch⟩ := f
  simp only at hal hr h2 h3 ⊢
  have bytes16 : alignOk (r.start % 8) ty = (r.start % 8 == 0) → ftBits ty = 128 → r.start % 8 = 0 ∧
      r.value 16 = .ok ((r.data.drop (r.start / 8)).take 16, r.advance 128) ∧
      r.rest.take 128 = bitsOf ((r.data.drop (r.start / 8)).take 16) := by
    intro e1 e2
    rw [e1] at hal
    have hs : r.start % 8 = 0 := by simpa using hal
    refine ⟨hs, ?_, Reader.rest_bytes hs (n := 16)⟩
    rw [Reader.value_ok (by omega)]; rfl
  cases ty with
  | uint n =>
    simp only [ftBits] at hr h3 ⊢
    have hs : r.start % 8 = 0 := by simpa [alignOk, subBits] using hal
    have hlen : ((r.data.drop (r.start / 8)).take n).length = n := by
      rw [List.length_take, List.length_drop]; omega
    have hlt : beNat ((r.data.drop (r.start / 8)).take n) < 2 ^ (8 * n) := by
      rw [beNat_eq]; have := ofBits_lt (bitsOf ((r.data.drop (r.start / 8)).take n)); rwa [bitsOf_length, hlen] at this
    refine ⟨.num (.uint n) (beNat ((r.data.drop (r.start / 8)).take n) : Nat), ?_, ?_, ?_, ?_⟩
    · simp only [deserVal, deserNum, Reader.value_ok (r := r) (n := n) (adv := true) (by omega), bind, Except.bind, pure,
        Except.pure, if_true, fromBytesBE_eq, Nat.mul_comm n 8]
    · simp [coerce]
    · simp [nextOff, subBits]; omega
    · intro w hw hws
      obtain ⟨w', e, ok, b, s⟩ := addBytes_uint (w := w) (v := (beNat ((r.data.drop (r.start / 8)).take n) : Nat)) (n := n)
        (by omega) (by omega) (by exact_mod_cast hlt)
      refine ⟨w', e, ok, ?_, by simp [nextOff, subBits, s]⟩
      rw [b, Reader.rest_bytes hs, Int.toNat_natCast, beNat_eq]
      congr 1
      have := toBits_ofBits (bitsOf ((r.data.drop (r.start / 8)).take n))
      rwa [bitsOf_length, hlen] at this
  | ubits n =>
    simp only [alignOk, subBits, Bool.and_eq_true, decide_eq_true_eq] at hal
    obtain ⟨e, _, hw⟩ := addBits_read hal.1 hal.2 hr
    refine ⟨.num (.ubits n) _, ?_, ?_, ?_, hw⟩
    · simp only [deserVal, deserNum, e, ftBits, bind, Except.bind, pure, Except.pure]
    · simp [coerce]
    · simp only [ftBits, nextOff, subBits]; omega
  | bits n =>
    simp only [alignOk, subBits, Bool.and_eq_true, decide_eq_true_eq] at hal
    obtain ⟨e, _, hw⟩ := addBits_read hal.1 hal.2 hr
    refine ⟨.num (.bits n) _, ?_, ?_, ?_, hw⟩
    · simp only [deserVal, deserNum, e, ftBits, bind, Except.bind, pure, Except.pure]
    · simp [coerce]
    · simp only [ftBits, nextOff, subBits]; omega
  | flag =>
    simp only [alignOk, subBits, Bool.and_eq_true, decide_eq_true_eq] at hal
    obtain ⟨e, hlt, hw⟩ := addBits_read hal.1 hal.2 hr
    refine ⟨.num .flag _, ?_, ?_, ?_, hw⟩
    · simp only [deserVal, deserNum, e, ftBits, bind, Except.bind, pure, Except.pure]
    · simp only [coerce, if_true]
      congr 2
      omega
    · simp only [ftBits, nextOff, subBits]; omega
  | reserved n =>
    simp only [alignOk, subBits, Bool.and_eq_true, decide_eq_true_eq] at hal
    obtain ⟨e, _, hw⟩ := addBits_read hal.1 hal.2 hr
    refine ⟨.num (.reserved n) _, ?_, ?_, ?_, hw⟩
    · simp only [deserVal, deserNum, e, ftBits, bind, Except.bind, pure, Except.pure]
    · simp [coerce]
    · simp only [ftBits, nextOff, subBits]; omega
  | dsk =>
    obtain ⟨hs, e, hb⟩ := bytes16 rfl rfl
    refine ⟨.dsk ((r.data.drop (r.start / 8)).take 16), ?_, rfl, ?_, ?_⟩
    · simp [deserVal, deserDskN, e, ftBits, bind, Except.bind, pure, Except.pure]
    · simp [ftBits, nextOff, subBits]; omega
    · intro w _ hws
      obtain ⟨a, b, c⟩ := Writer.extend_ok (w := w) (b := (r.data.drop (r.start / 8)).take 16) (by omega)
      refine ⟨_, rfl, a, ?_, c⟩
      rw [b, ftBits, hb]
  | ipv6 =>
    obtain ⟨hs, e, hb⟩ := bytes16 rfl rfl
    refine ⟨.ipv6 ((r.data.drop (r.start / 8)).take 16), ?_, rfl, ?_, ?_⟩
    · simp [deserVal, e, ftBits, bind, Except.bind, pure, Except.pure]
    · simp [ftBits, nextOff, subBits]; omega
    · intro w _ hws
      obtain ⟨a, b, c⟩ := Writer.extend_ok (w := w) (b := (r.data.drop (r.start / 8)).take 16) (by omega)
      refine ⟨_, rfl, a, ?_, c⟩
      rw [b, ftBits, hb]
  | _ => first | (simp [slotOf] at h1; done) | (simp [isRest] at h2; done)

/-- checked once per message class by evaluation -/
def fixedFields (fs : List Field) : Bool :=
  fs.all (fun f => (slotOf f).isSome && f.parse.isNone && f.compose.isNone && (isRest f.ty || decide (0 < ftBits f.ty)))

def names (fs : List Field) : List String := fs.map Field.name

/-- the bytes from here to the end are a target list that reads as `l` and is written back as it is -/
def NodesOk (fs : List Field) (t : Bytes) : Prop :=
  (∃ f ∈ fs, f.ty = .nodes) → t = [] ∨ ∃ l, deserNodes t = .ok l ∧ serNodes l = .ok t

theorem isRest_width {t : FT} (h : isRest t = true) : ftBits t = 0 ∧ (t = .bytes ∨ t = .nodes) ∧
    ∀ off, alignOk off t = true → off = 0 := by
  cases t <;> simp [isRest] at h <;> simp [ftBits, alignOk, subBits]

theorem parseFields_here {all fs : List Field} {dec : Reader → Py (Msg × Reader)} {f : Field} {r r' : Reader}
    {acc : Dict String Val} {v : Val} (hb : r.bytesLeft ≠ 0) (hm : f.ty ≠ .message) (hp : f.parse = none)
    (hd : deserVal f.ty r = .ok (v, r')) (hc : coerce (typeOf all f.name) v = .ok v) :
    parseFields all dec (f :: fs) r acc = parseFields all dec fs r' (Dict.set acc f.name v) := by
  simp only [parseFields, if_neg hb, if_neg hm, hp, hd, bind, Except.bind, hc]

theorem recompose_fields {all fs : List Field} {dec : Reader → Py (Msg × Reader)} {r : Reader} {acc : Dict String Val}
    (hfix : fixedFields fs = true) (hty : ∀ f ∈ fs, typeOf all f.name = f.ty)
    (hal : aligned (r.start % 8) fs = true) (hlast : restLast fs = true) (hnd : (names fs).Nodup)
    (hacc : ∀ n ∈ names fs, Dict.get? acc n = none) (hle : r.start + width fs ≤ 8 * r.data.length)
    (hno : NodesOk fs (r.data.drop ((r.start + width fs) / 8))) :
    ∃ attrs r', parseFields all dec fs r acc = .ok (attrs, none, r') ∧
      (∀ n, n ∉ names fs → Dict.get? attrs n = Dict.get? acc n) ∧
      ∀ w : Writer, w.Ok → w.start = r.start % 8 → ∃ w', composeFields attrs none fs w = .ok w' ∧ w'.Ok ∧
        w'.bits = w.bits ++ (if openEnd fs then r.rest else r.rest.take (width fs)) ∧
        w'.start = fs.foldl (fun o f => nextOff o f.ty) w.start := by
  induction fs generalizing r acc with
  | nil => exact ⟨acc, r, rfl, fun _ _ => rfl, fun w hw _ => ⟨w, rfl, hw, by simp [openEnd, width], rfl⟩⟩
  | cons f fs ih =>
    have hfix0 := hfix
    simp only [fixedFields, List.all_cons, Bool.and_eq_true, Bool.or_eq_true, decide_eq_true_eq, Option.isNone_iff_eq_none] at hfix
    obtain ⟨⟨⟨⟨hslot, hp⟩, hc⟩, hpos⟩, hfs⟩ := hfix
    simp only [aligned, Bool.and_eq_true] at hal
    simp only [names, List.map_cons, List.nodup_cons] at hnd
    simp only [width] at hle hno
    have hmsg : f.ty ≠ .message := by
      obtain ⟨s, hs⟩ := Option.isSome_iff_exists.mp hslot
      exact slotOf_not_message hs
    have hnone : Dict.get? acc f.name = none := hacc _ (by simp [names])
    cases hrest : isRest f.ty with
    | false =>
      have hf : isFixed f := ⟨hslot, hrest, by rcases hpos with h | h; · rw [hrest] at h; cases h
                                               · exact h⟩
      obtain ⟨v, e1, e2, e3, hw⟩ := field_read hf hal.1 (by omega)
      have hb : r.bytesLeft ≠ 0 := by
        have := hf.2.2
        simp only [Reader.bytesLeft]; omega
      have hl2 : restLast fs = true := by
        cases fs with
        | nil => rfl
        | cons g gs => simp only [restLast, Bool.and_eq_true] at hlast; exact hlast.2
      obtain ⟨attrs, r', p, hk, hcomp⟩ := ih (r := r.advance (ftBits f.ty)) (acc := Dict.set acc f.name v)
        (by simpa [fixedFields] using hfs) (fun g hg => hty g (by simp [hg])) (by simp only [Reader.advance, e3]; exact hal.2) hl2 hnd.2
        (by
          intro n hn
          rw [Dict.get?_set_ne _ _ (by intro h; subst h; exact hnd.1 hn)]
          exact hacc n (List.mem_cons_of_mem _ hn))
        (by simp only [Reader.advance]; omega)
        (by
          intro h
          obtain ⟨g, hg, hgt⟩ := h
          have := hno ⟨g, by simp [hg], hgt⟩
          simpa [Reader.advance, Nat.add_assoc] using this)
      have hget : Dict.get? attrs f.name = some v := by rw [hk _ hnd.1, Dict.get?_set_self]
      refine ⟨attrs, r', ?_, ?_, ?_⟩
      · rw [parseFields_here hb hmsg hp e1 (by rw [hty f (by simp)]; exact e2)]; exact p
      · intro n hn
        simp only [names, List.map_cons, List.mem_cons, not_or] at hn
        rw [hk n hn.2, Dict.get?_set_ne _ _ (fun h => hn.1 h.symm)]
      · intro w hok hws
        obtain ⟨w1, c1, ok1, b1, s1⟩ := hw w hok hws
        obtain ⟨w2, c2, ok2, b2, s2⟩ := hcomp w1 ok1 (by simp only [Reader.advance, e3, s1, hws])
        refine ⟨w2, ?_, ok2, ?_, ?_⟩
        · simp only [composeFields, composeField_eq hmsg hc, hget, Option.some_or, c1, bind, Except.bind, c2]
        · rw [b2, b1, Reader.rest_advance, List.append_assoc]
          congr 1
          have hop : openEnd (f :: fs) = openEnd fs := by simp [openEnd, hrest]
          rw [hop, width]
          split
          · exact List.take_append_drop _ _
          · rw [← List.take_add]
        · rw [s2, s1]; rfl
    | true =>
      obtain ⟨hw0, hty2, hoff⟩ := isRest_width hrest
      have hz : r.start % 8 = 0 := hoff _ hal.1
      have hnil : fs = [] := by
        cases fs with
        | nil => rfl
        | cons g gs => simp [restLast, hrest] at hlast
      subst hnil
      simp only [width, hw0, Nat.add_zero] at hle hno
      have hop : openEnd [f] = true := by simp [openEnd, hrest]
      have hrb : r.rest = bitsOf (r.data.drop (r.start / 8)) := by
        have := Reader.rest_bytes (r := r) (n := r.data.length) hz
        rw [List.take_of_length_le (by rw [Reader.rest_length]; omega),
          List.take_of_length_le (by rw [List.length_drop]; omega)] at this
        exact this
      by_cases hb : r.bytesLeft = 0
      · have hr0 : r.rest = [] := Reader.rest_nil_of_bytesLeft hle hb
        refine ⟨acc, r, by simp [parseFields, hb], fun _ _ => rfl, ?_⟩
        intro w hok hws
        have hs0 : w.start = 0 := by omega
        refine ⟨w.extend [], ?_, (Writer.extend_ok hs0).1, ?_, ?_⟩
        · simp only [composeFields, composeField_eq hmsg hc, hnone, Option.none_or, bind, Except.bind]
          rcases hty2 with h | h <;> rw [h] <;> rfl
        · rw [(Writer.extend_ok hs0).2.1, hop, hr0]; simp
        · rcases hty2 with h | h <;> simp [h, nextOff, subBits, Writer.extend, hs0]
      · have hne : r.data.drop (r.start / 8) ≠ [] := by
          intro h
          have := congrArg List.length h
          simp only [List.length_drop, List.length_nil] at this
          simp only [Reader.bytesLeft] at hb
          omega
        obtain ⟨v, e1, e2, e3⟩ : ∃ v, deserVal f.ty r = .ok (v, r.advance (r.data.length * 8)) ∧ coerce f.ty v = .ok v ∧
            ∀ w, serVal v w = .ok (w.extend (r.data.drop (r.start / 8))) := by
          rcases hty2 with h | h
          · exact ⟨.bytes _, by rw [h]; rfl, rfl, fun _ => rfl⟩
          · rcases hno ⟨f, by simp, h⟩ with h0 | ⟨l, d1, d2⟩
            · exact absurd h0 hne
            · refine ⟨.nodes l, ?_, rfl, ?_⟩
              · simp [h, deserVal, Reader.remaining, d1, bind, Except.bind, pure, Except.pure]
              · intro w; simp [serVal, d2, bind, Except.bind, pure, Except.pure]
        refine ⟨Dict.set acc f.name v, r.advance (r.data.length * 8), ?_, ?_, ?_⟩
        · rw [parseFields_here hb hmsg hp e1 (by rw [hty f (by simp)]; exact e2)]; rfl
        · intro n hn
          simp only [names, List.map_cons, List.mem_cons, not_or] at hn
          rw [Dict.get?_set_ne _ _ (fun h => hn.1 h.symm)]
        · intro w hok hws
          have hs0 : w.start = 0 := by omega
          refine ⟨_, ?_, (Writer.extend_ok (b := r.data.drop (r.start / 8)) hs0).1, ?_, ?_⟩
          · simp only [composeFields, composeField_eq hmsg hc, Dict.get?_set_self, Option.some_or, e3, bind, Except.bind]
          · rw [(Writer.extend_ok hs0).2.1, hop, hrb]; simp
          · rcases hty2 with h | h <;> simp [h, nextOff, subBits, Writer.extend, hs0]

/-! ### packets that stop early -/

/-- in every stretch of fixed size fields from a byte boundary on there is one without a default -/
def truncOk : Nat → List Field → Bool
  | _, [] => true
  | off, f :: fs => (off != 0 || width (f :: fs) == 0 || (f :: fs).any (fun g => (defaultVal g.ty).isNone)) &&
      truncOk (nextOff off f.ty) fs

theorem compose_missing {fs : List Field} {attrs : Dict String Val} {w : Writer} (hfix : fixedFields fs = true)
    (hw : w.Ok) (hal : aligned w.start fs = true) (hmiss : ∀ n ∈ names fs, Dict.get? attrs n = none)
    (hex : fs.any (fun g => (defaultVal g.ty).isNone) = true) :
    composeFields attrs none fs w = .error .attribute := by
  induction fs generalizing w with
  | nil => simp at hex
  | cons f fs ih =>
    simp only [fixedFields, List.all_cons, Bool.and_eq_true, Bool.or_eq_true, decide_eq_true_eq, Option.isNone_iff_eq_none] at hfix
    obtain ⟨⟨⟨⟨hslot, hp⟩, hc⟩, hpos⟩, hfs⟩ := hfix
    simp only [aligned, Bool.and_eq_true] at hal
    have hmsg : f.ty ≠ .message := by
      obtain ⟨s, hs⟩ := Option.isSome_iff_exists.mp hslot
      exact slotOf_not_message hs
    have hnone : Dict.get? attrs f.name = none := hmiss _ (by simp [names])
    simp only [composeFields, composeField_eq hmsg hc, hnone, Option.none_or]
    have hrec : ∀ w' : Writer, w'.Ok → w'.start = nextOff w.start f.ty → (defaultVal f.ty).isNone = false →
        composeFields attrs none fs w' = .error .attribute := by
      intro w' hw' hs' hd
      simp only [List.any_cons, hd, Bool.false_or] at hex
      exact ih (by simpa [fixedFields] using hfs) hw' (by rw [hs']; exact hal.2) (fun n hn => hmiss n (List.mem_cons_of_mem _ hn)) hex
    obtain ⟨name, ty, ph, ch⟩ := f
    cases ty with
    | reserved n =>
      simp only [alignOk, subBits, Bool.and_eq_true, decide_eq_true_eq] at hal
      obtain ⟨w', e, ok, _, s⟩ := Writer.addBits_ok (v := 0) hw hal.1.1 hal.1.2 (Nat.two_pow_pos _)
      have e' : serVal (.num (.reserved n) 0) w = .ok w' := e
      simp only [defaultVal, e', bind, Except.bind]
      exact hrec w' ok s rfl
    | bytes =>
      simp only [alignOk, subBits, beq_iff_eq] at hal
      obtain ⟨a, b, c⟩ := Writer.extend_ok (w := w) (b := []) hal.1
      simp only [defaultVal, serVal, bind, Except.bind]
      exact hrec _ a c rfl
    | nodes =>
      simp only [alignOk, subBits, beq_iff_eq] at hal
      obtain ⟨a, b, c⟩ := Writer.extend_ok (w := w) (b := []) hal.1
      have e' : serVal (.nodes []) w = .ok (w.extend []) := rfl
      simp only [defaultVal, e', bind, Except.bind]
      exact hrec _ a c rfl
    | hdr => simp [slotOf] at hslot
    | _ => rfl

theorem width_rest {fs : List Field} (h : restLast fs = true) (hr : ∃ f gs, fs = f :: gs ∧ isRest f.ty = true) : width fs = 0 := by
  obtain ⟨f, gs, rfl, hf⟩ := hr
  cases gs with
  | nil => simp [width, (isRest_width hf).1]
  | cons g gs => simp [restLast, hf] at h

theorem deserVal_eof {f : Field} {r : Reader} (hf : isFixed f) (hal : alignOk (r.start % 8) f.ty = true)
    (hr : 8 * r.data.length < r.start + ftBits f.ty) : deserVal f.ty r = .error .eof ∨ 8 * r.data.length ≤ r.start := by
  obtain ⟨h1, h2, h3⟩ := hf
  obtain ⟨name, ty, ph, ch⟩ := f
  simp only at hal hr h2 h3 ⊢
  cases ty with
  | uint n =>
    simp only [alignOk, subBits, beq_iff_eq] at hal
    simp only [ftBits] at hr
    left
    simp [deserVal, deserNum, Reader.value_eof (r := r) (n := n) (adv := true) (by omega), bind, Except.bind]
  | dsk =>
    simp only [alignOk, subBits, beq_iff_eq] at hal
    simp only [ftBits] at hr
    left
    simp [deserVal, deserDskN, Reader.value_eof (r := r) (n := 16) (adv := true) (by omega), bind, Except.bind]
  | ipv6 =>
    simp only [alignOk, subBits, beq_iff_eq] at hal
    simp only [ftBits] at hr
    left
    simp [deserVal, Reader.value_eof (r := r) (n := 16) (adv := true) (by omega), bind, Except.bind]
  | _ => first
    | (simp [slotOf] at h1; done)
    | (simp [isRest] at h2; done)
    | (right
       simp only [alignOk, subBits, Bool.and_eq_true, decide_eq_true_eq] at hal
       simp only [ftBits] at hr
       omega)

theorem truncated_fields {all fs : List Field} {dec : Reader → Py (Msg × Reader)} {r : Reader} {acc : Dict String Val}
    (hfix : fixedFields fs = true) (hty : ∀ f ∈ fs, typeOf all f.name = f.ty)
    (hal : aligned (r.start % 8) fs = true) (hlast : restLast fs = true) (hnd : (names fs).Nodup)
    (htr : truncOk (r.start % 8) fs = true)
    (hacc : ∀ n ∈ names fs, Dict.get? acc n = none) (hr : r.start ≤ 8 * r.data.length)
    (hlt : 8 * r.data.length < r.start + width fs) :
    parseFields all dec fs r acc = .error .eof ∨ ∃ attrs r', parseFields all dec fs r acc = .ok (attrs, none, r') ∧
      (∀ n, n ∉ names fs → Dict.get? attrs n = Dict.get? acc n) ∧
      ∀ w : Writer, w.Ok → w.start = r.start % 8 → composeFields attrs none fs w = .error .attribute := by
  induction fs generalizing r acc with
  | nil => simp only [width] at hlt; omega
  | cons f fs ih =>
    have hfix0 := hfix
    simp only [fixedFields, List.all_cons, Bool.and_eq_true, Bool.or_eq_true, decide_eq_true_eq, Option.isNone_iff_eq_none] at hfix
    obtain ⟨⟨⟨⟨hslot, hp⟩, hc⟩, hpos⟩, hfs⟩ := hfix
    have hal0 := hal
    simp only [aligned, Bool.and_eq_true] at hal
    have hnd0 := hnd
    simp only [names, List.map_cons, List.nodup_cons] at hnd
    have hmsg : f.ty ≠ .message := by
      obtain ⟨s, hs⟩ := Option.isSome_iff_exists.mp hslot
      exact slotOf_not_message hs
    have hrest : isRest f.ty = false := by
      cases h : isRest f.ty with
      | false => rfl
      | true => have := width_rest hlast ⟨f, fs, rfl, h⟩; omega
    have hf : isFixed f := ⟨hslot, hrest, by rcases hpos with h | h; · rw [hrest] at h; cases h
                                             · exact h⟩
    simp only [truncOk, Bool.and_eq_true, Bool.or_eq_true, bne_iff_ne, beq_iff_eq] at htr
    by_cases hb : r.bytesLeft = 0
    · right
      refine ⟨acc, r, by simp [parseFields, hb], fun _ _ => rfl, ?_⟩
      intro w hw hws
      have hz : r.start % 8 = 0 := by simp only [Reader.bytesLeft] at hb; omega
      refine compose_missing hfix0 hw (by rw [hws]; exact hal0) hacc ?_
      rcases htr.1 with (h | h) | h
      · exact absurd hz h
      · rw [h] at hlt; omega
      · exact h
    · by_cases hin : r.start + ftBits f.ty ≤ 8 * r.data.length
      · obtain ⟨v, e1, e2, e3, hw⟩ := field_read hf hal.1 hin
        have hl2 : restLast fs = true := by
          cases fs with
          | nil => rfl
          | cons g gs => simp only [restLast, Bool.and_eq_true] at hlast; exact hlast.2
        rw [parseFields_here hb hmsg hp e1 (by rw [hty f (by simp)]; exact e2)]
        have := ih (r := r.advance (ftBits f.ty)) (acc := Dict.set acc f.name v)
          (by simpa [fixedFields] using hfs) (fun g hg => hty g (by simp [hg])) (by simp only [Reader.advance, e3]; exact hal.2) hl2 hnd.2
          (by simp only [Reader.advance, e3]; exact htr.2)
          (by
            intro n hn
            rw [Dict.get?_set_ne _ _ (by intro h; subst h; exact hnd.1 hn)]
            exact hacc n (List.mem_cons_of_mem _ hn))
          (by simp only [Reader.advance]; omega)
          (by simp only [Reader.advance, width] at hlt ⊢; omega)
        rcases this with h | ⟨attrs, r', p, hk, hcomp⟩
        · exact Or.inl h
        · right
          have hget : Dict.get? attrs f.name = some v := by rw [hk _ hnd.1, Dict.get?_set_self]
          refine ⟨attrs, r', p, ?_, ?_⟩
          · intro n hn
            simp only [names, List.map_cons, List.mem_cons, not_or] at hn
            rw [hk n hn.2, Dict.get?_set_ne _ _ (fun h => hn.1 h.symm)]
          · intro w hok hws
            obtain ⟨w1, c1, ok1, b1, s1⟩ := hw w hok hws
            have := hcomp w1 ok1 (by simp only [Reader.advance, e3, s1, hws])
            simp only [composeFields, composeField_eq hmsg hc, hget, Option.some_or, c1, bind, Except.bind, this]
      · left
        rcases deserVal_eof hf hal.1 (by omega) with h | h
        · simp only [parseFields, if_neg hb, if_neg hmsg, hp, h, bind, Except.bind]
        · exfalso; apply hb; simp only [Reader.bytesLeft]; omega

/-! ### layouts -/

/-- checked once per message class by evaluation -/
def staticAny (d : MsgDef) : Bool :=
  fixedFields d.fields && aligned 0 d.fields && restLast d.fields && decide ((names d.fields).Nodup) &&
  truncOk 0 d.fields && (d.fields.foldl (fun o f => nextOff o f.ty) 0 == 0)

theorem slots_sizes {fs : List Field} {ss : List Slot} (h : slotsOf fs = some ss) :
    (ss.map Slot.fixedBits).sum = width fs ∧ ss.any Slot.isOpen = openEnd fs ∧
      (ss.any (fun s => match s with | .nodes _ => true | _ => false) = true ↔ ∃ f ∈ fs, f.ty = .nodes) := by
  induction fs generalizing ss with
  | nil => cases h; simp [width, openEnd]
  | cons f fs ih =>
    simp only [slotsOf] at h
    split at h
    · rename_i s ss' h1 h2
      cases h
      obtain ⟨i1, i2, i3⟩ := ih h2
      obtain ⟨name, ty, ph, ch⟩ := f
      simp only [List.map_cons, List.sum_cons, i1, width, List.any_cons, i2, openEnd, Bool.or_eq_true, i3, List.mem_cons,
        exists_eq_or_imp]
      cases ty <;> simp only [slotOf, Option.some.injEq, reduceCtorEq] at h1 <;> subst h1 <;>
        simp [Slot.fixedBits, Slot.isOpen, ftBits, isRest]
    · cases h

theorem aligned_width {fs : List Field} {off : Nat} (hfix : fixedFields fs = true) (hal : aligned off fs = true) (ho : off < 8) :
    (off + width fs) % 8 = fs.foldl (fun o f => nextOff o f.ty) off := by
  induction fs generalizing off with
  | nil => simp [width]; omega
  | cons f fs ih =>
    simp only [fixedFields, List.all_cons, Bool.and_eq_true] at hfix
    obtain ⟨⟨⟨⟨hslot, _⟩, _⟩, _⟩, hfs⟩ := hfix
    simp only [aligned, Bool.and_eq_true] at hal
    have hn : nextOff off f.ty < 8 := by
      simp only [nextOff]; split <;> omega
    have := ih (by simpa [fixedFields] using hfs) hal.2 hn
    rw [List.foldl_cons, ← this, width]
    have hstep : (off + ftBits f.ty) % 8 = nextOff off f.ty := by
      obtain ⟨name, ty, ph, ch⟩ := f
      cases ty <;> simp [slotOf] at hslot <;> simp [alignOk, subBits] at hal <;> simp [ftBits, nextOff, subBits] <;> omega
    omega

theorem distinct_types {fs : List Field} (hnd : (names fs).Nodup) : ∀ f ∈ fs, typeOf fs f.name = f.ty := by
  intro f hf
  unfold typeOf
  cases hg : fs.find? (fun g => g.name = f.name) with
  | none => exact absurd (List.find?_eq_none.mp hg f hf) (by simp)
  | some g =>
    have h1 := List.mem_of_find?_eq_some hg
    have h2 : g.name = f.name := by simpa using List.find?_some hg
    clear hg
    have : g = f := by
      induction fs with
      | nil => cases hf
      | cons x xs ih =>
        simp only [names, List.map_cons, List.nodup_cons] at hnd
        rcases List.mem_cons.mp hf with rfl | hf' <;> rcases List.mem_cons.mp h1 with rfl | h1'
        · rfl
        · exact absurd (List.mem_map.mpr ⟨g, h1', h2⟩) hnd.1
        · exact absurd (List.mem_map.mpr ⟨f, hf', h2.symm⟩) hnd.1
        · exact ih hnd.2 hf' h1'
    rw [this]

theorem head_bits {d : MsgDef} {rest : Bytes} (hcc : d.cc < 256) (hcmd : d.cmd < 256) :
    bitsOf (UInt8.ofNat d.cc :: UInt8.ofNat d.cmd :: rest) = toBits 8 d.cc ++ toBits 8 d.cmd ++ bitsOf rest := by
  rw [bitsOf_cons, bitsOf_cons, toBits_uint8 hcc, toBits_uint8 hcmd, List.append_assoc]

theorem recompose_any {d : MsgDef} {rest : Bytes} (hd : d ∈ registry) (hok : staticAny d = true)
    (hle : width d.fields ≤ 8 * rest.length) (hno : NodesOk d.fields (rest.drop (width d.fields / 8))) :
    ∃ m, decode (UInt8.ofNat d.cc :: UInt8.ofNat d.cmd :: rest) = .ok m ∧
      compose m = .ok (UInt8.ofNat d.cc :: UInt8.ofNat d.cmd ::
        (if openEnd d.fields then rest else rest.take (width d.fields / 8))) := by
  obtain ⟨hcc, hcmd⟩ := registry_bytes d hd
  simp only [staticAny, Bool.and_eq_true, decide_eq_true_eq, beq_iff_eq] at hok
  obtain ⟨⟨⟨⟨⟨hfix, hal⟩, hlast⟩, hnd⟩, htr⟩, hend⟩ := hok
  have hw8 : width d.fields % 8 = 0 := by have := aligned_width hfix hal (by omega); rw [hend] at this; omega
  have hfind := find_hid d hd
  obtain ⟨r, hr1, hr2, hr3, hr4, he⟩ := deserMsg_head (depth := rest.length + 2) hcc hcmd (head_bits hcc hcmd (rest := rest)) hfind
  obtain ⟨attrs, r', e, _, hcomp⟩ := recompose_fields (all := d.fields) (dec := deserMsg registry (rest.length + 2)) (r := r) (acc := [])
    hfix (distinct_types hnd) (by rw [hr1]; exact hal) hlast hnd (by simp) (by rw [hr1, hr2]; simp; omega)
    (by
      rw [hr1, hr2, show (16 + width d.fields) / 8 = width d.fields / 8 + 1 + 1 by omega]
      simpa using hno)
  refine ⟨.known d.hid attrs, ?_, ?_⟩
  · simp only [decode, decodeN, List.length_cons, he, e, bind, Except.bind, pure, Except.pure, MsgDef.hid]
  · obtain ⟨w1, e1, ok1, b1, s1⟩ := addBytes_uint (w := Writer.new) (v := d.cc) (n := 1) rfl (by omega) (by omega)
    obtain ⟨w2, e2, ok2, b2, s2⟩ := addBytes_uint (w := w1) (v := d.cmd) (n := 1) s1 (by omega) (by omega)
    obtain ⟨w3, e3, ok3, b3, s3⟩ := hcomp w2 ok2 (by rw [hr1, s2])
    rw [s2, hend] at s3
    simp only [compose, composeWith, hfind, composeDef, e1, e2, e3, bind, Except.bind, pure, Except.pure]
    refine congrArg Except.ok (bitsOf_inj ?_)
    rw [← Writer.bits_aligned s3, b3, b2, b1, Writer.bits_new, head_bits hcc hcmd, hr4]
    simp only [Int.toNat_natCast, List.nil_append, Nat.mul_one]
    have : (if openEnd d.fields = true then bitsOf rest else List.take (width d.fields) (bitsOf rest)) =
        bitsOf (if openEnd d.fields = true then rest else rest.take (width d.fields / 8)) := by
      split
      · rfl
      · rw [← bitsOf_take, show 8 * (width d.fields / 8) = width d.fields by omega]
    rw [this]

theorem truncated_any {d : MsgDef} {rest : Bytes} (hd : d ∈ registry) (hok : staticAny d = true)
    (hlt : 8 * rest.length < width d.fields) :
    decode (UInt8.ofNat d.cc :: UInt8.ofNat d.cmd :: rest) = .error .eof ∨
    ∃ m, decode (UInt8.ofNat d.cc :: UInt8.ofNat d.cmd :: rest) = .ok m ∧ compose m = .error .attribute := by
  obtain ⟨hcc, hcmd⟩ := registry_bytes d hd
  simp only [staticAny, Bool.and_eq_true, decide_eq_true_eq, beq_iff_eq] at hok
  obtain ⟨⟨⟨⟨⟨hfix, hal⟩, hlast⟩, hnd⟩, htr⟩, hend⟩ := hok
  have hfind := find_hid d hd
  obtain ⟨r, hr1, hr2, hr3, hr4, he⟩ := deserMsg_head (depth := rest.length + 2) hcc hcmd (head_bits hcc hcmd (rest := rest)) hfind
  rcases truncated_fields (all := d.fields) (dec := deserMsg registry (rest.length + 2)) (r := r) (acc := [])
    hfix (distinct_types hnd) (by rw [hr1]; exact hal) hlast hnd (by rw [hr1]; exact htr) (by simp) hr3
    (by rw [hr1, hr2]; simp; omega) with h | ⟨attrs, r', e, _, hcomp⟩
  · left
    simp only [decode, decodeN, List.length_cons, he, h, bind, Except.bind]
  · right
    refine ⟨.known d.hid attrs, ?_, ?_⟩
    · simp only [decode, decodeN, List.length_cons, he, e, bind, Except.bind, pure, Except.pure, MsgDef.hid]
    · obtain ⟨w1, e1, ok1, b1, s1⟩ := addBytes_uint (w := Writer.new) (v := d.cc) (n := 1) rfl (by omega) (by omega)
      obtain ⟨w2, e2, ok2, b2, s2⟩ := addBytes_uint (w := w1) (v := d.cmd) (n := 1) s1 (by omega) (by omega)
      have e3 := hcomp w2 ok2 (by rw [hr1, s2])
      simp only [compose, composeWith, hfind, composeDef, e1, e2, e3, bind, Except.bind]

end Model

import Verif.Model.Equality
import Verif.Props.Messages
import Verif.Props.Decoding
/-!
# Property theorems C114: comparing messages
-/
namespace Props.Equality
open Spec Model

/-- The full property: messages that were received can be compared, and are equal only if they have the same type. -/
def C114_statement : Prop := ∀ (p q : Bytes) (a b : Msg), decode p = .ok a → decode q = .ok b → ∃ r, msgEq a b = .ok r ∧ (r = true → a.hid = b.hid)

/-- **C114.** All messages of types that are not known are equal. -/
theorem C114_violated : ¬ C114_statement := by
  intro h
  obtain ⟨r, h1, h2⟩ := h [0x01, 0x02] [0x03, 0x04] _ _ rfl rfl
  have : r = true := by
    have e : msgEq (.unknown 0x0102) (.unknown 0x0304) = .ok true := rfl
    exact (Except.ok.inj (h1.symm.trans e))
  exact absurd (h2 this) (by decide)

/-- **C114.** A message that ended too early cannot be compared, not even with itself: AttributeError is raised. -/
theorem C114_raises_violated : ∃ m, decode [0x20, 0x01] = .ok m ∧ msgEq m m = .error .attribute := by
  refine ⟨.known 0x2001 [], by decide +kernel, by decide +kernel⟩

/-- **C114.** What holds: for any two messages made of arguments that fit, the comparison does not raise, and gives True exactly if they are the same on the wire. Then they have the
same command class and command, and if they are of one type, the same values. -/
theorem C114_equal_partial : ∀ L ∈ layouts, ∀ L' ∈ layouts, ∃ d ∈ registry, ∃ d' ∈ registry, d.name = L.title ∧ d'.name = L'.title ∧
    ∀ (a a' : Args) (bits bits' : List Bool), (∀ n ∈ reservedNames, a n = none) → (∀ n ∈ reservedNames, a' n = none) → L.wire a = some bits → L'.wire a' = some bits' →
      (∀ s ∈ L.slots, s.Unambiguous a) → (∀ s ∈ L'.slots, s.Unambiguous a') →
      ∃ m m', construct d (argKw a) = .ok m ∧ construct d' (argKw a') = .ok m' ∧ msgEq m m' = .ok (decide (bits = bits')) ∧
        (bits = bits' → m.hid = m'.hid ∧ (L = L' → ∀ s ∈ L.slots, ∀ name x x', s.readBack a = some (name, x) → s.readBack a' = some (name, x') → x = x')) := by
  intro L hL L' hL'
  obtain ⟨d, hd, hn, h⟩ := C06_roundtrip L hL
  obtain ⟨d', hd', hn', h'⟩ := C06_roundtrip L' hL'
  obtain ⟨e, he, hen, g⟩ := C07_layout L hL
  obtain ⟨e', he', hen', g'⟩ := C07_layout L' hL'
  have uniq : ∀ d ∈ registry, ∀ e ∈ registry, d.name = e.name → d = e := by
    intro d hd e he hde
    have key : (registry.all fun d => registry.all fun e => d.name != e.name || d == e) = true := by decide +kernel
    have := List.all_eq_true.mp (List.all_eq_true.mp key d hd) e he
    simpa [hde] using this
  have ed : e = d := uniq e he d hd (hen.trans hn.symm)
  have ed' : e' = d' := uniq e' he' d' hd' (hen'.trans hn'.symm)
  subst ed ed'
  refine ⟨e, he, e', he', hn, hn', ?_⟩
  intro a a' bits bits' hr hr' hw hw' hu hu'
  obtain ⟨m, b, m1, c1, c2, c3, c4, c5⟩ := h a bits hr hw hu
  obtain ⟨n, b', m1', c1', c2', c3', c4', c5'⟩ := h' a' bits' hr' hw' hu'
  obtain ⟨o, bo, k1, k2, k3⟩ := g a bits hr hw
  obtain ⟨o', bo', k1', k2', k3'⟩ := g' a' bits' hr' hw'
  cases c1.symm.trans k1
  cases c1'.symm.trans k1'
  cases c2.symm.trans k2
  cases c2'.symm.trans k2'
  refine ⟨m, n, c1, c1', ?_, ?_⟩
  · have : (b = b') ↔ bits = bits' := ⟨fun h => by rw [← k3, ← k3', h], fun h => bitsOf_inj (by rw [k3, k3', h])⟩
    simp only [msgEq, c2, c2', bind, Except.bind, pure, Except.pure, this]
  · intro hb
    have hbb : b = b' := bitsOf_inj (by rw [k3, k3', hb])
    subst hbb
    cases c3.symm.trans c3'
    have hid : ∀ (d : MsgDef) kw x, construct d kw = .ok x → x.hid = d.hid := by
      intro d kw x hx
      simp only [construct] at hx
      obtain ⟨_, _, hx⟩ := bind_ok hx
      cases hx; rfl
    constructor
    · rw [hid _ _ _ c1, hid _ _ _ c1']
      have lid : ∀ L ∈ layouts, ∀ d ∈ registry, d.name = L.title → d.hid = L.cc * 256 + L.cmd := by
        intro L hL d hd hn
        obtain ⟨d0, hd0, hm⟩ := layouts_match L hL
        simp only [layoutMatches, Bool.and_eq_true, beq_iff_eq, Bool.or_eq_true, List.all_eq_true, List.contains_iff_mem] at hm
        obtain ⟨⟨⟨⟨⟨⟨h1, h2⟩, h3⟩, -⟩, -⟩, -⟩, -⟩ := hm
        cases uniq d hd d0 hd0 (hn.trans h1.symm)
        have := (C08_unique.2 d hd).2
        simp only [MsgDef.hid, ← h2, ← h3]; omega
      rw [lid L hL e he hn, lid L' hL' e' he' hn', ← c4, ← c4']
    · rintro rfl s hs name x x' hx hx'
      have q := c5 s hs name x hx
      have q' := c5' s hs name x' hx'
      exact Option.some.inj (q.symm.trans q')

end Props.Equality

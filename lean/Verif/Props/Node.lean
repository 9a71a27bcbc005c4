import Verif.Model.Node
import Verif.Spec.Node
import Verif.Lemmas.Listen
import Verif.Lemmas.Dict
import Verif.Lemmas.Conn
import Verif.Lemmas.NetMan
/-!
# Nodes: command classes, message handling, storage lock, listeners (C48-C52, C68)
-/
namespace Props.Node
open Model Model.Node Model.Listen Spec Spec.Node
open Model.Gateway (compose_of_layout arg1 argKw_arg1 argKw_none reserved_arg1)

/-! ## C48: node information frames -/

/-- Reading the items one by one. -/
private def tokStep (s : Bool × Bool × Nif) : Tok → Bool × Bool × Nif
  | .cls c => (s.1, s.2.1, s.2.2.load s.1 s.2.1 c)
  | .control => (false, s.2.1, s.2.2)
  | .secure => (true, true, s.2.2)

private theorem scan_cls (sup s0 : Bool) (c : Nat) (r : List Nat) (n : Nif) (h : c ≠ 0xEF) (h1 : c = 0xF1 → ∃ b t, r = b :: t ∧ b ≠ 0) :
    scan sup s0 (c :: r) n = scan sup s0 r (n.load sup s0 c) := by
  cases r with
  | nil =>
    have hc : c ≠ 0xF1 := by intro e; obtain ⟨b, t, hb, _⟩ := h1 e; cases hb
    simp [scan, h, hc]
  | cons d r =>
    have hd : ¬ (c = 0xF1 ∧ d = 0) := by rintro ⟨e, e'⟩; obtain ⟨b, t, hb, hn⟩ := h1 e; cases hb; exact hn e'
    simp [scan, h, hd]

private theorem scan_toks (toks : List Tok) (tail : List Nat) (hl : Legal toks tail) (s : Bool × Bool × Nif) :
    scan s.1 s.2.1 (wire toks ++ tail) s.2.2 = (let e := toks.foldl tokStep s; scan e.1 e.2.1 tail e.2.2) := by
  induction toks generalizing s with
  | nil => simp [wire]
  | cons t ts ih =>
    cases t with
    | cls c =>
      simp only [Legal] at hl
      have e : wire (.cls c :: ts) ++ tail = c :: (wire ts ++ tail) := by simp [wire, Tok.wire]
      rw [e, scan_cls _ _ _ _ _ hl.1 hl.2.1]
      exact ih hl.2.2 (s.1, s.2.1, s.2.2.load s.1 s.2.1 c)
    | control =>
      simp only [Legal] at hl
      have e : wire (.control :: ts) ++ tail = 0xEF :: (wire ts ++ tail) := by simp [wire, Tok.wire]
      rw [e]
      have h := ih hl (false, s.2.1, s.2.2)
      simp only [List.foldl_cons, tokStep]
      rw [← h]
      cases wire ts ++ tail with
      | nil => simp [scan]
      | cons d r => simp [scan]
    | secure =>
      simp only [Legal] at hl
      have e : wire (.secure :: ts) ++ tail = 0xF1 :: 0x00 :: (wire ts ++ tail) := by simp [wire, Tok.wire]
      rw [e]
      have h := ih hl (true, true, s.2.2)
      simp only [List.foldl_cons, tokStep]
      rw [← h]
      simp [scan]

private theorem open_snoc_secure (l : List Tok) : Open (l ++ [.secure]) := by
  intro j hj
  refine ⟨l.length, ?_, by simp⟩
  rcases Nat.lt_or_ge j l.length with h | h
  · exact h
  · rw [List.getElem?_append_right h] at hj
    cases hd : j - l.length with
    | zero => rw [hd] at hj; cases hj
    | succ k => rw [hd] at hj; cases hj

private theorem open_snoc_control (l : List Tok) : ¬ Open (l ++ [.control]) := by
  intro h
  obtain ⟨k, hk, e⟩ := h l.length (by simp)
  have hlt : k < (l ++ [Tok.control]).length := by
    rcases Nat.lt_or_ge k (l ++ [Tok.control]).length with h | h
    · exact h
    · rw [List.getElem?_eq_none h] at e; cases e
  simp at hlt; omega

private theorem open_snoc_cls (l : List Tok) (c : Nat) : Open (l ++ [.cls c]) ↔ Open l := by
  constructor
  · intro h j hj
    have hjl : j < l.length := by
      rcases Nat.lt_or_ge j l.length with h | h
      · exact h
      · rw [List.getElem?_eq_none h] at hj; cases hj
    obtain ⟨k, hk, e⟩ := h j (by rw [List.getElem?_append_left hjl]; exact hj)
    refine ⟨k, hk, ?_⟩
    rcases Nat.lt_or_ge k l.length with h | h
    · rw [List.getElem?_append_left h] at e; exact e
    · rw [List.getElem?_append_right h] at e
      cases hd : k - l.length with
      | zero => rw [hd] at e; cases e
      | succ k => rw [hd] at e; cases e
  · intro h j hj
    rcases Nat.lt_or_ge j l.length with hl | hl
    · rw [List.getElem?_append_left hl] at hj
      obtain ⟨k, hk, e⟩ := h j hj
      refine ⟨k, hk, ?_⟩
      have : k < l.length := by
        rcases Nat.lt_or_ge k l.length with h | h
        · exact h
        · rw [List.getElem?_eq_none h] at e; cases e
      rw [List.getElem?_append_left this]; exact e
    · rw [List.getElem?_append_right hl] at hj
      cases hd : j - l.length with
      | zero => rw [hd] at hj; cases hj
      | succ k => rw [hd] at hj; cases hj

/-- A class is listed at position `i` in one of the two ways. -/
private def At (sup : Bool) (toks : List Tok) (i c : Nat) : Prop := toks[i]? = some (Tok.cls c) ∧ (Open (toks.take i) ↔ sup = true)

private theorem at_snoc (sup : Bool) (l : List Tok) (t : Tok) (i c : Nat) :
    At sup (l ++ [t]) i c ↔ At sup l i c ∨ (i = l.length ∧ t = .cls c ∧ (Open l ↔ sup = true)) := by
  unfold At
  rcases Nat.lt_trichotomy i l.length with h | h | h
  · rw [List.getElem?_append_left h, List.take_append_of_le_length (by omega)]
    constructor
    · exact Or.inl
    · rintro (h' | h')
      · exact h'
      · omega
  · subst h
    rw [List.getElem?_append_right (Nat.le_refl _)]
    simp
  · rw [List.getElem?_eq_none (by simp; omega), List.getElem?_eq_none (by omega)]
    simp; omega

private theorem fold_toks (toks : List Tok) :
    let e := toks.foldl tokStep (true, false, ⟨[], []⟩)
    (e.1 = true ↔ Open toks) ∧ (e.2.1 = true ↔ Tok.secure ∈ toks) ∧
    (∀ c b, e.2.2.supported.get? c = some b ↔ ∃ i, At true toks i c ∧ (b = true ↔ SecureAt toks i) ∧ ∀ j, At true toks j c → j ≤ i) ∧
    (∀ c b, e.2.2.controlled.get? c = some b ↔ ∃ i, At false toks i c ∧ (b = true ↔ SecureAt toks i) ∧ ∀ j, At false toks j c → j ≤ i) := by
  induction toks using Model.Conn.snoc_ind with
  | nil => simp [Open, At]
  | snoc l t ih =>
    obtain ⟨h1, h2, h3, h4⟩ := ih
    simp only [List.foldl_append, List.foldl_cons, List.foldl_nil]
    generalize he : l.foldl tokStep (true, false, ⟨[], []⟩) = e at *
    have hlen (sup : Bool) (i c : Nat) (h : At sup l i c) : i < l.length := by
      rcases Nat.lt_or_ge i l.length with h' | h'
      · exact h'
      · have := h.1; rw [List.getElem?_eq_none h'] at this; cases this
    have hsec (i : Nat) (h : i ≤ l.length) : SecureAt (l ++ [t]) i ↔ SecureAt l i := by
      unfold SecureAt; rw [List.take_append_of_le_length h]
    -- adding an item that does not name a class in this way changes nothing
    have keep (sup : Bool) (c : Nat) (b : Bool) (hn : ¬ (t = .cls c ∧ (Open l ↔ sup = true))) :
        (∃ i, At sup (l ++ [t]) i c ∧ (b = true ↔ SecureAt (l ++ [t]) i) ∧ ∀ j, At sup (l ++ [t]) j c → j ≤ i) ↔
        (∃ i, At sup l i c ∧ (b = true ↔ SecureAt l i) ∧ ∀ j, At sup l j c → j ≤ i) := by
      have e (i : Nat) : At sup (l ++ [t]) i c ↔ At sup l i c := by
        rw [at_snoc]
        constructor
        · rintro (h | h)
          · exact h
          · exact absurd h.2 hn
        · exact Or.inl
      constructor
      · rintro ⟨i, ha, hb, hc⟩
        have ha' := (e i).1 ha
        exact ⟨i, ha', by rw [← hsec i (Nat.le_of_lt (hlen _ _ _ ha'))]; exact hb, fun j hj => hc j ((e j).2 hj)⟩
      · rintro ⟨i, ha, hb, hc⟩
        exact ⟨i, (e i).2 ha, by rw [hsec i (Nat.le_of_lt (hlen _ _ _ ha))]; exact hb, fun j hj => hc j ((e j).1 hj)⟩
    -- adding one that does makes it the last one
    have new (sup : Bool) (c : Nat) (b : Bool) (ht : t = .cls c) (ho : Open l ↔ sup = true) :
        (∃ i, At sup (l ++ [t]) i c ∧ (b = true ↔ SecureAt (l ++ [t]) i) ∧ ∀ j, At sup (l ++ [t]) j c → j ≤ i) ↔ e.2.1 = b := by
      have hlast : At sup (l ++ [t]) l.length c := (at_snoc ..).2 (Or.inr ⟨rfl, ht, ho⟩)
      have hs : SecureAt (l ++ [t]) l.length ↔ e.2.1 = true := by
        rw [hsec _ (Nat.le_refl _), h2]; unfold SecureAt; rw [List.take_length]
      constructor
      · rintro ⟨i, ha, hb, hc⟩
        have hi : i = l.length := by
          have h1 := hc _ hlast
          rcases (at_snoc ..).1 ha with h | h
          · have := hlen _ _ _ h; omega
          · exact h.1
        subst hi
        rw [hs] at hb
        cases hb' : e.2.1 <;> cases b <;> simp_all
      · intro hb
        refine ⟨l.length, hlast, by rw [hs, hb], ?_⟩
        intro j hj
        rcases (at_snoc ..).1 hj with h | h
        · have := hlen _ _ _ h; omega
        · omega
    cases t with
    | control =>
      refine ⟨?_, ?_, ?_, ?_⟩
      · simp [tokStep, open_snoc_control]
      · simp [tokStep, h2]
      · intro c b; rw [keep true c b (by simp)]; exact h3 c b
      · intro c b; rw [keep false c b (by simp)]; exact h4 c b
    | secure =>
      refine ⟨?_, ?_, ?_, ?_⟩
      · simp [tokStep, open_snoc_secure]
      · simp [tokStep]
      · intro c b; rw [keep true c b (by simp)]; exact h3 c b
      · intro c b; rw [keep false c b (by simp)]; exact h4 c b
    | cls d =>
      refine ⟨?_, ?_, ?_, ?_⟩
      · simp only [tokStep, open_snoc_cls, h1]
      · simp [tokStep, h2]
      · intro c b
        by_cases hc : d = c ∧ e.1 = true
        · obtain ⟨rfl, hs⟩ := hc
          rw [new true d b rfl (by simp [← h1, hs])]
          simp [tokStep, Nif.load, hs, Dict.get?_set_self]
        · rw [keep true c b (by rintro ⟨h, h'⟩; injection h with h; exact hc ⟨h, h1.2 (by simpa using h')⟩), ← h3]
          simp only [tokStep, Nif.load]
          split
          · rename_i hs
            have : d ≠ c := fun h => hc ⟨h, hs⟩
            simp only [Dict.get?_set_ne _ _ this]
          · rfl
      · intro c b
        by_cases hc : d = c ∧ e.1 = false
        · obtain ⟨rfl, hs⟩ := hc
          rw [new false d b rfl (by simp [← h1, hs])]
          simp [tokStep, Nif.load, hs, Dict.get?_set_self]
        · rw [keep false c b (by
            rintro ⟨h, h'⟩; injection h with h
            refine hc ⟨h, ?_⟩
            cases he1 : e.1 with
            | false => rfl
            | true => have := h'.1 (h1.1 he1); cases this), ← h4]
          simp only [tokStep, Nif.load]
          split
          · rfl
          · rename_i hs
            have : d ≠ c := fun h => hc ⟨h, by simpa using hs⟩
            simp only [Dict.get?_set_ne _ _ this]

/-- The full property: every list of command classes is read. -/
def C48_statement : Prop := ∀ cmdClasses : List Nat, ∃ n, classes cmdClasses = .ok n

/-- A list that ends with the first byte of a security mark raises IndexError. -/
theorem C48_violated : ¬ C48_statement := by
  intro h
  obtain ⟨n, hn⟩ := h [0x25, 0xF1]
  have : classes [0x25, 0xF1] = .error .index := by decide +kernel
  rw [this] at hn; cases hn

/-- Every list is a sequence of classes and marks, or ends with half a mark; in the latter case creating the node raises IndexError. -/
theorem C48_every_list_partial (l : List Nat) :
    (∃ toks n, Legal toks [] ∧ l = wire toks ∧ classes l = .ok n) ∨
    (∃ toks, Legal toks [0xF1] ∧ l = wire toks ++ [0xF1] ∧ classes l = .error .index) := by
  have key : ∀ (k : Nat) (l : List Nat), l.length ≤ k → (∃ toks, Legal toks [] ∧ l = wire toks) ∨ (∃ toks, Legal toks [0xF1] ∧ l = wire toks ++ [0xF1]) := by
    intro k
    induction k with
    | zero => intro l hl; have : l = [] := List.length_eq_zero_iff.1 (by omega); subst this; exact Or.inl ⟨[], trivial, rfl⟩
    | succ k ih =>
      intro l hl
      cases l with
      | nil => exact Or.inl ⟨[], trivial, rfl⟩
      | cons c r =>
        by_cases hs : ∃ r', c = 0xF1 ∧ r = 0x00 :: r'
        · obtain ⟨r', rfl, rfl⟩ := hs
          rcases ih r' (by simp at hl; omega) with ⟨ts, h1, h2⟩ | ⟨ts, h1, h2⟩
          · exact Or.inl ⟨.secure :: ts, h1, by simp [h2, wire, Tok.wire]⟩
          · exact Or.inr ⟨.secure :: ts, h1, by simp [h2, wire, Tok.wire]⟩
        · by_cases hc : c = 0xEF
          · subst hc
            rcases ih r (by simp at hl; omega) with ⟨ts, h1, h2⟩ | ⟨ts, h1, h2⟩
            · exact Or.inl ⟨.control :: ts, h1, by simp [h2, wire, Tok.wire]⟩
            · exact Or.inr ⟨.control :: ts, h1, by simp [h2, wire, Tok.wire]⟩
          · by_cases hl1 : c = 0xF1 ∧ r = []
            · obtain ⟨rfl, rfl⟩ := hl1
              exact Or.inr ⟨[], trivial, rfl⟩
            · have hleg : c = 0xF1 → ∃ b t, r = b :: t ∧ b ≠ 0 := by
                intro e
                cases r with
                | nil => exact absurd ⟨e, rfl⟩ hl1
                | cons b t => exact ⟨b, t, rfl, fun hb => hs ⟨t, e, by rw [hb]⟩⟩
              rcases ih r (by simp at hl; omega) with ⟨ts, h1, h2⟩ | ⟨ts, h1, h2⟩
              · exact Or.inl ⟨.cls c :: ts, ⟨hc, by rw [List.append_nil, ← h2]; exact hleg, h1⟩, by simp [h2, wire, Tok.wire]⟩
              · exact Or.inr ⟨.cls c :: ts, ⟨hc, by rw [← h2]; exact hleg, h1⟩, by simp [h2, wire, Tok.wire]⟩
  rcases key l.length l (Nat.le_refl _) with ⟨ts, h1, h2⟩ | ⟨ts, h1, h2⟩
  · refine Or.inl ⟨ts, (ts.foldl tokStep (true, false, ⟨[], []⟩)).2.2, h1, h2, ?_⟩
    have := scan_toks ts [] h1 (true, false, ⟨[], []⟩)
    rw [List.append_nil] at this
    rw [h2]; simp only [classes, this]; simp [scan]
  · refine Or.inr ⟨ts, h1, h2, ?_⟩
    have := scan_toks ts [0xF1] h1 (true, false, ⟨[], []⟩)
    rw [h2]; simp only [classes, this]; simp [scan]

/-- What a node supports: exactly the classes listed as supported ones, with S0 security exactly if the last such occurrence follows a security mark. -/
theorem C48_supported_partial (toks : List Tok) (hl : Legal toks []) (n : Nif) (h : classes (wire toks) = .ok n) (c : Nat) (b : Bool) :
    n.supported.get? c = some b ↔
      ∃ i, SupportedAt toks i c ∧ (b = true ↔ SecureAt toks i) ∧ ∀ j, SupportedAt toks j c → j ≤ i := by
  have e := scan_toks toks [] hl (true, false, ⟨[], []⟩)
  rw [List.append_nil] at e
  have f := fold_toks toks
  simp only [classes] at h
  rw [e] at h
  simp only [scan] at h
  cases h
  have := f.2.2.1 c b
  simpa [At, SupportedAt] using this

/-- What a node controls: exactly the classes listed as controlled ones. -/
theorem C48_controlled_partial (toks : List Tok) (hl : Legal toks []) (n : Nif) (h : classes (wire toks) = .ok n) (c : Nat) :
    n.controlled.mem c = true ↔ ∃ i, ControlledAt toks i c := by
  have e := scan_toks toks [] hl (true, false, ⟨[], []⟩)
  rw [List.append_nil] at e
  have f := fold_toks toks
  simp only [classes] at h
  rw [e] at h
  simp only [scan] at h
  cases h
  have f := f.2.2.2
  unfold Dict.mem
  rw [Option.isSome_iff_exists]
  constructor
  · rintro ⟨b, hb⟩
    obtain ⟨i, hi, _⟩ := (f c b).1 hb
    exact ⟨i, hi.1, fun ho => by have := hi.2.1 ho; cases this⟩
  · rintro ⟨i, hi⟩
    -- take the last occurrence
    have hex : ∃ i, At false toks i c := ⟨i, hi.1, by simp [hi.2]⟩
    have hbound (i : Nat) (h : At false toks i c) : i < toks.length := by
      rcases Nat.lt_or_ge i toks.length with h' | h'
      · exact h'
      · have := h.1; rw [List.getElem?_eq_none h'] at this; cases this
    have hmax : ∃ i, At false toks i c ∧ ∀ j, At false toks j c → j ≤ i := by
      have aux : ∀ (d i : Nat), toks.length - i ≤ d → At false toks i c → ∃ i, At false toks i c ∧ ∀ j, At false toks j c → j ≤ i := by
        intro d
        induction d with
        | zero => intro i hd ha; have := hbound i ha; omega
        | succ d ih =>
          intro i hd ha
          by_cases hg : ∃ j, At false toks j c ∧ i < j
          · obtain ⟨j, hj, hij⟩ := hg
            exact ih j (by have := hbound j hj; omega) hj
          · exact ⟨i, ha, fun j hj => by
              rcases Nat.lt_or_ge i j with h | h
              · exact absurd ⟨j, hj, h⟩ hg
              · exact h⟩
      obtain ⟨i, hi⟩ := hex
      exact aux toks.length i (by omega) hi
    obtain ⟨i, ha, hm⟩ := hmax
    by_cases hs : SecureAt toks i
    · exact ⟨true, (f c true).2 ⟨i, ha, by simp [hs], hm⟩⟩
    · exact ⟨false, (f c false).2 ⟨i, ha, by simp [hs], hm⟩⟩

/-- Binary switch plain, switch multilevel with S0 only, basic controlled, and the meter both ways (the later one counts). -/
example : classes [0x25, 0x32, 0xEF, 0x20, 0xF1, 0x00, 0x26, 0x32] =
    .ok ⟨[(0x25, false), (0x32, true), (0x26, true)], [(0x20, false)]⟩ := by decide +kernel
example : Legal [.cls 0x25, .cls 0x32, .control, .cls 0x20, .secure, .cls 0x26, .cls 0x32] [] := by simp [Legal]


/-! ## C68: listeners -/

variable {σ : Type}

/-- What calling a listener changes before speak() returns. -/
def Effect (w : σ) : Callback σ → σ
  | .sync f => (f w).1
  | _ => w

/-- The state in which the listener number `i` is called. -/
def Before (ls : List (Callback σ)) (w : σ) (i : Nat) : σ := (ls.take i).foldl Effect w

private theorem before_zero (ls : List (Callback σ)) (w : σ) : Before ls w 0 = w := by simp [Before]
private theorem before_succ (c : Callback σ) (ls : List (Callback σ)) (w : σ) (i : Nat) : Before (c :: ls) w (i + 1) = Before ls (Effect w c) i := by
  simp [Before]

/-- The effect of speak() on the state is the effect of all plain listeners, in registration order, whatever they return or raise. -/
theorem C68_effects (k : Nat) (ls : List (Callback σ)) (w : σ) : (speak k ls w).1 = ls.foldl Effect w := by
  induction ls generalizing k w with
  | nil => rfl
  | cons c ls ih =>
    cases c with
    | missing => exact ih (k+1) w
    | async f => exact ih (k+1) w
    | sync f => exact ih (k+1) (f w).1

/-- The futures speak() returns come in registration order: the value for every plain listener that returned, nothing for one that raised, a task for every coroutine. -/
theorem C68_results (k : Nat) (ls : List (Callback σ)) (w : σ) :
    (speak k ls w).2.2 = (List.range ls.length).flatMap fun i : Nat =>
      match ls[i]? with
      | some (.sync f) =>
        match (f (Before ls w i)).2 with
        | .ok v => [Fut.ready (k + i) v]
        | .error _ => []
      | some (.async f) => [Fut.task (k + i) f]
      | _ => [] := by
  induction ls generalizing k w with
  | nil => rfl
  | cons c ls ih =>
    rw [List.length_cons, List.range_succ_eq_map, List.flatMap_cons, List.flatMap_map]
    simp only [List.getElem?_cons_zero, List.getElem?_cons_succ, Nat.succ_eq_add_one, before_succ, before_zero, Nat.add_zero]
    have ih := fun w => ih (k + 1) w
    simp only [Nat.add_assoc k 1, Nat.add_comm 1] at ih
    cases c with
    | missing => exact ih w
    | async f => simp only [speak, Effect, ih w, List.singleton_append]
    | sync f =>
      simp only [speak, Effect]
      rw [ih (f w).1]
      cases (f w).2 <;> rfl

/-- The calls made by speak() itself: every plain listener, once, in registration order. -/
theorem C68_calls (k : Nat) (ls : List (Callback σ)) (w : σ) :
    (speak k ls w).2.1 = (List.range ls.length).flatMap fun i : Nat =>
      match ls[i]? with
      | some (.sync f) => [(k + i, (f (Before ls w i)).2)]
      | _ => [] := by
  induction ls generalizing k w with
  | nil => rfl
  | cons c ls ih =>
    rw [List.length_cons, List.range_succ_eq_map, List.flatMap_cons, List.flatMap_map]
    simp only [List.getElem?_cons_zero, List.getElem?_cons_succ, Nat.succ_eq_add_one, before_succ, before_zero, Nat.add_zero]
    have ih := fun w => ih (k + 1) w
    simp only [Nat.add_assoc k 1, Nat.add_comm 1] at ih
    cases c with
    | missing => exact ih w
    | async f => exact ih w
    | sync f => simp only [speak, Effect, ih (f w).1, List.singleton_append]

/-- With ask(), every listener that has the callback is called exactly once. -/
theorem C68_ask_once (ls : List (Callback σ)) (w : σ) (i : Nat) :
    ((ask ls w).2.1.map Prod.fst).count i ≤ 1 ∧
    (i ∈ (ask ls w).2.1.map Prod.fst ↔ ∃ c, ls[i]? = some c ∧ c ≠ .missing) := by
  have h := ask_count ls w i
  have hp : (ls[i]?).any Callback.present = true ↔ ∃ c, ls[i]? = some c ∧ c ≠ .missing := by
    cases h : ls[i]? with
    | none => simp
    | some c => cases c <;> simp [Callback.present]
  rw [← hp]
  constructor
  · rw [h]; split <;> omega
  · rw [← List.count_pos_iff, h]
    split
    · rename_i h'; simp [h']
    · rename_i h'; simp [h']

/-- Whether one plain listener raises makes no difference to what the others are given or return. -/
theorem C68_isolation (pre post : List (Callback σ)) (f g : σ → σ × Py Ret) (hfg : ∀ w, (f w).1 = (g w).1) (w : σ) (k : Nat) :
    ∃ a b x y, (speak k (pre ++ .sync f :: post) w).2.2 = a ++ x ++ b ∧ (speak k (pre ++ .sync g :: post) w).2.2 = a ++ y ++ b ∧
      x.length ≤ 1 ∧ y.length ≤ 1 ∧ (speak k (pre ++ .sync f :: post) w).1 = (speak k (pre ++ .sync g :: post) w).1 := by
  have split : ∀ (k : Nat) (w : σ) (pre l : List (Callback σ)),
      (speak k (pre ++ l) w).2.2 = (speak k pre w).2.2 ++ (speak (k + pre.length) l (speak k pre w).1).2.2 := by
    intro k w pre
    induction pre generalizing k w with
    | nil => intro l; simp [speak]
    | cons c pre ih =>
      intro l
      have e : k + (c :: pre).length = (k + 1) + pre.length := by simp; omega
      rw [e]
      cases c with
      | missing => exact ih (k+1) w l
      | async f => simp only [List.cons_append, speak, ih (k+1) w l]
      | sync f =>
        simp only [List.cons_append, speak, ih (k+1) (f w).1 l]
        cases (f w).2 <;> rfl
  let w1 := (speak k pre w).1
  let k1 := k + pre.length
  refine ⟨(speak k pre w).2.2, (speak (k1 + 1) post (f w1).1).2.2,
    (match (f w1).2 with | .ok v => [Fut.ready k1 v] | .error _ => []), (match (g w1).2 with | .ok v => [Fut.ready k1 v] | .error _ => []), ?_, ?_, ?_, ?_, ?_⟩
  · rw [split]; simp only [speak]
    show _ = _
    cases h : (f w1).2 <;> simp [w1, k1, h] <;> simp_all [w1, k1]
  · rw [split]; simp only [speak]
    cases h : (g w1).2 <;> simp_all [w1, k1]
  · cases (f w1).2 <;> simp
  · cases (g w1).2 <;> simp
  · simp only [C68_effects, List.foldl_append, List.foldl_cons, Effect, hfg]

/-- A listener without the callback, one that raises, a coroutine, and one that counts the calls. -/
example : let ls : List (Callback Nat) := [.missing, .sync fun n => (n + 1, .error .value), .async fun n => (n + 1, .ok .none), .sync fun n => (n + 1, .ok (.bool true))]
    (speak 0 ls 5).1 = 7 ∧ (speak 0 ls 5).2.1 = [(1, .error .value), (3, .ok (.bool true))] ∧ (ask ls 5).1 = 8 ∧
    (ask ls 5).2.2 = .ok [.none, .bool true] := by decide +kernel


/-! ## C50: routing -/

/-- Somebody says they handled the message: a waiting call took it, or a callback returned something true. -/
def Handled : Ev → Bool
  | .offered (.ok b) => b
  | .handler _ (.ok r) => r.truthy
  | .classListener _ _ _ (.ok r) => r.truthy
  | .listener _ (.ok r) => r.truthy
  | _ => false

/-- A catch-all listener was called. -/
def CatchAll : Ev → Bool
  | .listener _ _ => true
  | _ => false

/-- Something raised. -/
def Raised (x : PyErr) : Ev → Prop
  | .offered r => r = .error x
  | .handler _ r => r = .error x
  | .classListener _ _ _ r => r = .error x
  | .listener _ r => r = .error x
  | .sent _ r => r = .error x

/-- A part of the trace belongs to the command class of the message. -/
def OfClass (cls : Nat) (meth : String) : Ev → Prop
  | .handler c _ => c = cls
  | .classListener c n _ _ => c = cls ∧ n = meth
  | _ => False

private theorem any_truthy {ls : List (Callback σ)} {w : σ} {vs : List Ret} (h : (ask ls w).2.2 = .ok vs) :
    (vs.any Ret.truthy = true ↔ ∃ a ∈ (ask ls w).2.1, ∃ r, a.2 = .ok r ∧ r.truthy = true) := by
  rw [List.any_eq_true]
  constructor
  · rintro ⟨v, hv, ht⟩
    obtain ⟨i, hi⟩ := (ask_ok ls w vs h v).1 hv
    exact ⟨_, hi, v, rfl, ht⟩
  · rintro ⟨⟨i, a⟩, ha, r, hr, ht⟩
    cases hr
    exact ⟨r, (ask_ok ls w vs h r).2 ⟨i, ha⟩, ht⟩

private theorem askClass_spec (e : Env σ) (w : World σ) (cls : Nat) (name : String) (m : Msg) :
    ∃ tr, (askClass e w cls name m).1.trace = w.trace ++ tr ∧ (∀ ev ∈ tr, OfClass cls (methodName name) ev) ∧
      (∀ b, (askClass e w cls name m).2 = .ok b → (b = true ↔ ∃ ev ∈ tr, Handled ev = true)) ∧
      (∀ x, (askClass e w cls name m).2 = .error x → ∃ ev ∈ tr, Raised x ev) := by
  refine ⟨_, rfl, ?_, ?_, ?_⟩
  · intro ev hev
    obtain ⟨a, -, rfl⟩ := List.mem_map.1 hev
    exact ⟨rfl, rfl⟩
  · intro b hb
    simp only [askClass] at hb
    cases h : (ask (e.classListeners cls (methodName name) m) w.user).2.2 with
    | error x => rw [h] at hb; cases hb
    | ok vs =>
      rw [h] at hb; cases hb
      rw [any_truthy h]
      constructor
      · rintro ⟨a, ha, r, hr, ht⟩
        exact ⟨_, List.mem_map.2 ⟨a, ha, rfl⟩, by simp [Handled, hr, ht]⟩
      · rintro ⟨ev, hev, ht⟩
        obtain ⟨a, ha, rfl⟩ := List.mem_map.1 hev
        cases hr : a.2 with
        | error x => simp [Handled, hr] at ht
        | ok r => exact ⟨a, ha, r, hr, by simpa [Handled, hr] using ht⟩
  · intro x hx
    simp only [askClass] at hx
    cases h : (ask (e.classListeners cls (methodName name) m) w.user).2.2 with
    | ok vs => rw [h] at hx; cases hx
    | error y =>
      rw [h] at hx; cases hx
      obtain ⟨i, hi⟩ := ask_error _ _ _ h
      exact ⟨_, List.mem_map.2 ⟨_, hi, rfl⟩, rfl⟩

private theorem askNode_spec (e : Env σ) (w : World σ) (m : Msg) :
    ∃ tr, (askNode e w m).1.trace = w.trace ++ tr ∧ (∀ ev ∈ tr, CatchAll ev = true) ∧
      (∀ b, (askNode e w m).2 = .ok b → (b = true ↔ ∃ ev ∈ tr, Handled ev = true)) ∧
      (∀ x, (askNode e w m).2 = .error x → ∃ ev ∈ tr, Raised x ev) ∧
      (∀ i, (∃ r, Ev.listener i r ∈ tr) ↔ ∃ c, (e.listeners m)[i]? = some c ∧ c ≠ .missing) := by
  refine ⟨_, rfl, ?_, ?_, ?_, ?_⟩
  · intro ev hev
    obtain ⟨a, -, rfl⟩ := List.mem_map.1 hev
    rfl
  · intro b hb
    simp only [askNode] at hb
    cases h : (ask (e.listeners m) w.user).2.2 with
    | error x => rw [h] at hb; cases hb
    | ok vs =>
      rw [h] at hb; cases hb
      rw [any_truthy h]
      constructor
      · rintro ⟨a, ha, r, hr, ht⟩
        exact ⟨_, List.mem_map.2 ⟨a, ha, rfl⟩, by simp [Handled, hr, ht]⟩
      · rintro ⟨ev, hev, ht⟩
        obtain ⟨a, ha, rfl⟩ := List.mem_map.1 hev
        cases hr : a.2 with
        | error x => simp [Handled, hr] at ht
        | ok r => exact ⟨a, ha, r, hr, by simpa [Handled, hr] using ht⟩
  · intro x hx
    simp only [askNode] at hx
    cases h : (ask (e.listeners m) w.user).2.2 with
    | ok vs => rw [h] at hx; cases hx
    | error y =>
      rw [h] at hx; cases hx
      obtain ⟨i, hi⟩ := ask_error _ _ _ h
      exact ⟨_, List.mem_map.2 ⟨_, hi, rfl⟩, rfl⟩
  · intro i
    rw [← (C68_ask_once (e.listeners m) w.user i).2]
    constructor
    · rintro ⟨r, hr⟩
      obtain ⟨a, ha, e⟩ := List.mem_map.1 hr
      cases e
      exact List.mem_map.2 ⟨a, ha, rfl⟩
    · intro hi
      obtain ⟨a, ha, rfl⟩ := List.mem_map.1 hi
      exact ⟨a.2, List.mem_map.2 ⟨a, ha, rfl⟩⟩

private theorem classHandle_spec (e : Env σ) (w : World σ) (cls : Nat) (m : Msg) :
    ∃ tr meth, (classHandle e w cls m).1.trace = w.trace ++ tr ∧ (∀ ev ∈ tr, OfClass cls meth ev) ∧ (∀ name, nameOf m = some name → meth = methodName name) ∧
      (∀ b, (classHandle e w cls m).2 = .ok b → (b = true ↔ ∃ ev ∈ tr, Handled ev = true)) ∧
      (∀ x, (classHandle e w cls m).2 = .error x → ∃ ev ∈ tr, Raised x ev) := by
  unfold classHandle
  split
  · rename_i hn
    exact ⟨[], "", by simp, by simp, (by simp [hn]), by simp, by simp⟩
  · rename_i name hn
    split
    · obtain ⟨tr, h1, h2, h3, h4⟩ := askClass_spec e w cls name m
      exact ⟨tr, _, h1, h2, by simp [hn], h3, h4⟩
    · rename_i h hh
      simp only
      split
      · rename_i x hx
        exact ⟨[.handler cls (h m w.user).2], methodName name, rfl, by simp [OfClass], by simp [hn], by simp, by simp [Raised, hx]⟩
      · rename_i r hr
        split
        · rename_i ht
          exact ⟨[.handler cls (h m w.user).2], methodName name, rfl, by simp [OfClass], by simp [hn], by simp [Handled, hr, ht], by simp⟩
        · rename_i ht
          obtain ⟨tr, h1, h2, h3, h4⟩ := askClass_spec e { w with user := (h m w.user).1, trace := w.trace ++ [.handler cls (h m w.user).2] } cls name m
          refine ⟨.handler cls (h m w.user).2 :: tr, methodName name, by rw [h1]; simp, ?_, by simp [hn], ?_, ?_⟩
          · intro ev hev
            rcases List.mem_cons.1 hev with rfl | hev
            · rfl
            · exact h2 ev hev
          · intro b hb
            rw [h3 b hb]
            simp [Handled, hr, ht]
          · intro x hx
            obtain ⟨ev, hev, h⟩ := h4 x hx
            exact ⟨ev, List.mem_cons_of_mem _ hev, h⟩

private theorem fallback_spec (e : Env σ) (w : World σ) (taken : Bool) (m : Msg) :
    ∃ tr, (fallback e w taken m).1.trace = w.trace ++ tr ∧ (∀ ev ∈ tr, CatchAll ev = true) ∧ (taken = true → tr = []) ∧
      (∀ b, (fallback e w taken m).2 = .ok b → (b = true ↔ taken = true ∨ ∃ ev ∈ tr, Handled ev = true)) ∧
      (∀ x, (fallback e w taken m).2 = .error x → ∃ ev ∈ tr, Raised x ev) ∧
      (taken = false → ∀ i, (∃ r, Ev.listener i r ∈ tr) ↔ ∃ c, (e.listeners m)[i]? = some c ∧ c ≠ .missing) := by
  unfold fallback
  cases taken with
  | true => exact ⟨[], by simp, by simp, by simp, by simp, by simp, by simp⟩
  | false =>
    obtain ⟨tr, h1, h2, h3, h4, h5⟩ := askNode_spec e w m
    exact ⟨tr, h1, h2, by simp, fun b hb => by simpa using h3 b hb, h4, fun _ => h5⟩

/-- How a message that is not supervised is handled, whatever the callbacks do. First it is offered to the waiting calls. Then the handler and the listeners of its
command class are asked, if the node supports the class. The catch-all listeners come last, and only if nobody has handled it so far; then all of them are asked.
The result is true exactly if somebody handled the message; an exception is one raised on the way. -/
theorem C50_routing (e : Env σ) (w : World σ) (m : Msg) (hm : m.hid ≠ 0x6C01) :
    ∃ (o : Py Bool) (mine rest : List Ev) (meth : String),
      (handleMessage e w m).1.trace = w.trace ++ .offered o :: (mine ++ rest) ∧
      -- a waiting call takes it exactly if one is registered
      (∀ b, o = .ok b → (b = true ↔ ∃ f, w.waiter.sessions.get? m.hid = some f)) ∧
      -- only its own command class is asked, and only if supported
      (∀ ev ∈ mine, OfClass m.cmdClass meth ev) ∧ (e.supported m.cmdClass = false → mine = []) ∧
      (∀ name, nameOf m = some name → e.supported m.cmdClass = true → meth = methodName name) ∧
      -- the catch-all listeners are asked only if nobody handled it, and then all of them
      (∀ ev ∈ rest, CatchAll ev = true) ∧
      (rest ≠ [] → o = .ok false ∧ ∀ ev ∈ mine, Handled ev = false) ∧
      (∀ b, (handleMessage e w m).2 = .ok b → o = .ok false → (∀ ev ∈ mine, Handled ev = false) →
        ∀ i, (∃ r, Ev.listener i r ∈ rest) ↔ ∃ c, (e.listeners m)[i]? = some c ∧ c ≠ .missing) ∧
      -- the result
      (∀ b, (handleMessage e w m).2 = .ok b → (b = true ↔ o = .ok true ∨ (∃ ev ∈ mine, Handled ev = true) ∨ ∃ ev ∈ rest, Handled ev = true)) ∧
      (∀ x, (handleMessage e w m).2 = .error x → o = .error x ∨ ∃ ev ∈ mine ++ rest, Raised x ev) := by
  have hm' : ¬ m.hid = Reg.Supervision.Get.hid := hm
  simp only [handleMessage, if_neg hm']
  have ho : ∀ b, (Waiter.messageReceived w.waiter m).2 = .ok b → (b = true ↔ ∃ f, w.waiter.sessions.get? m.hid = some f) := by
    intro b hb
    unfold Waiter.messageReceived at hb
    split at hb
    · rename_i hn; cases hb; simp [hn]
    · rename_i f hf
      split at hb <;> cases hb
      simp [hf]
  unfold handlePlain
  dsimp only
  generalize hw1 : ({ w with waiter := (Waiter.messageReceived w.waiter m).1, trace := w.trace ++ [.offered (Waiter.messageReceived w.waiter m).2] } : World σ) = w1
  have ht1 : w1.trace = w.trace ++ [.offered (Waiter.messageReceived w.waiter m).2] := by rw [← hw1]
  generalize (Waiter.messageReceived w.waiter m).2 = o at *
  cases o with
  | error x => exact ⟨.error x, [], [], ((nameOf m).map methodName).getD "", by simp [ht1], by simp, by simp, by simp, by
      intro name hn _; simp [hn], by simp, by simp, by simp, by simp, by simp⟩
  | ok taken =>
    simp only
    by_cases hsup : e.supported m.cmdClass = true
    · rw [if_pos hsup]
      obtain ⟨mine, meth, c1, c2, cn, c3, c4⟩ := classHandle_spec e w1 m.cmdClass m
      generalize classHandle e w1 m.cmdClass m = c at *
      cases hc : c.2 with
      | error x =>
        exact ⟨.ok taken, mine, [], meth, by simp [c1, ht1], ho, c2, by simp [hsup], fun n hn _ => cn n hn, by simp, by simp, by simp, by simp,
          fun y hy => by cases hy; obtain ⟨ev, h, h'⟩ := c4 x hc; exact Or.inr ⟨ev, by simp [h], h'⟩⟩
      | ok b =>
        have c3 := c3 b hc
        cases b with
        | true =>
          refine ⟨.ok taken, mine, [], meth, by simp [c1, ht1], ho, c2, by simp [hsup], fun n hn _ => cn n hn, by simp, by simp, ?_, ?_, by simp⟩
          · intro b _ _ hh
            obtain ⟨ev, hev, h⟩ := c3.1 rfl
            rw [hh ev hev] at h; cases h
          · intro b hb
            cases hb
            simp only [true_iff]
            exact Or.inr (Or.inl (c3.1 rfl))
        | false =>
          obtain ⟨rest, f1, f2, f3, f4, f5, f6⟩ := fallback_spec e c.1 taken m
          have hnone : ∀ ev ∈ mine, Handled ev = false := by
            intro ev hev
            cases h : Handled ev with
            | false => rfl
            | true => exact absurd (c3.2 ⟨ev, hev, h⟩) (by simp)
          refine ⟨.ok taken, mine, rest, meth, by simp only [f1, c1, ht1]; simp, ho, c2, by simp [hsup], fun n hn _ => cn n hn, f2, ?_, ?_, ?_, ?_⟩
          · intro hr
            refine ⟨?_, hnone⟩
            cases taken with
            | false => rfl
            | true => exact absurd (f3 rfl) hr
          · intro b _ hto _
            cases hto
            exact f6 rfl
          · intro b hb
            rw [f4 b hb]
            constructor
            · rintro (h | h)
              · exact Or.inl (by rw [h])
              · exact Or.inr (Or.inr h)
            · rintro (h | ⟨ev, hev, h⟩ | h)
              · cases h; exact Or.inl rfl
              · rw [hnone ev hev] at h; cases h
              · exact Or.inr h
          · intro x hx
            obtain ⟨ev, hev, h⟩ := f5 x hx
            exact Or.inr ⟨ev, List.mem_append.2 (Or.inr hev), h⟩
    · rw [if_neg hsup]
      obtain ⟨rest, f1, f2, f3, f4, f5, f6⟩ := fallback_spec e w1 taken m
      refine ⟨.ok taken, [], rest, "", by simp only [f1, ht1]; simp, ho, by simp, by simp, by simp [hsup], f2, ?_, ?_, ?_, ?_⟩
      · intro hr
        refine ⟨?_, by simp⟩
        cases taken with
        | false => rfl
        | true => exact absurd (f3 rfl) hr
      · intro b _ hto _
        cases hto
        exact f6 rfl
      · intro b hb
        rw [f4 b hb]
        simp
      · intro x hx
        obtain ⟨ev, hev, h⟩ := f5 x hx
        exact Or.inr ⟨ev, by simpa using hev, h⟩

/-- A node with a binary switch class whose listener ignores the message, and a catch-all listener that takes it; σ counts the calls. -/
def sampleEnv : Env Nat where
  supported c := c == 0x25
  handler _ _ := none
  classListeners _ _ _ := [.missing, .sync fun n => (n + 1, .ok .none)]
  listeners _ := [.async fun n => (n + 1, .ok (.bool true))]
  send _ n := (n, .ok true)

example : (handleMessage sampleEnv ⟨Waiter.init, 0, []⟩ (.known 0x2503 [])).2 = .ok true ∧
    (handleMessage sampleEnv ⟨Waiter.init, 0, []⟩ (.known 0x2503 [])).1.trace =
      [.offered (.ok false), .classListener 0x25 "onReport" 1 (.ok .none), .listener 0 (.ok (.bool true))] := by decide +kernel

/-! ## C49: supervision -/

/-- The full property: handling a Supervision.Get sends exactly one report. -/
def C49_statement : Prop :=
  ∀ (e : Env Nat) (w : World Nat) (b : Spec.Bytes) (m : Msg), decode b = .ok m → m.hid = 0x6C01 →
    ∃ tr1 r a tr2, (handleMessage e w m).1.trace = w.trace ++ tr1 ++ .sent r a :: tr2 ∧ r.hid = 0x6C02

/-- A Supervision.Get without a command raises AttributeError. -/
theorem C49_violated : ¬ C49_statement := by
  intro h
  obtain ⟨tr1, r, a, tr2, h1, -⟩ := h sampleEnv ⟨Waiter.init, 0, []⟩ [0x6C, 0x01, 0x05]
    (.known 0x6C01 [("statusUpdates", .num .flag 0), ("-", .num (.reserved 1) 0), ("sessionID", .num (.bits 6) 5)]) (by decide +kernel) rfl
  have e : (handleMessage sampleEnv ⟨Waiter.init, 0, []⟩ (.known 0x6C01 [("statusUpdates", .num .flag 0), ("-", .num (.reserved 1) 0),
      ("sessionID", .num (.bits 6) 5)])).1.trace = [] := by decide +kernel
  rw [e] at h1
  simp at h1

/-- A message sent. -/
def IsSent : Ev → Bool
  | .sent _ _ => true
  | _ => false

/-- Handling a message that is not supervised sends no report. -/
theorem C49_unsupervised_partial (e : Env σ) (w : World σ) (m : Msg) (hm : m.hid ≠ 0x6C01) :
    ∃ tr, (handleMessage e w m).1.trace = w.trace ++ tr ∧ ∀ ev ∈ tr, IsSent ev = false := by
  obtain ⟨o, mine, rest, meth, h1, -, h2, -, -, h3, -⟩ := C50_routing e w m hm
  refine ⟨_, h1, ?_⟩
  intro ev hev
  rcases List.mem_cons.1 hev with rfl | hev
  · rfl
  · rcases List.mem_append.1 hev with hev | hev
    · have := h2 ev hev
      cases ev <;> simp_all [OfClass, IsSent]
    · have := h3 ev hev
      cases ev <;> simp_all [CatchAll, IsSent]

theorem report_bytes (m : Msg) (v : Int) (hs : m.num? "sessionID" = some v) (h0 : 0 ≤ v) (h1 : v < 64) (handled : Bool) :
    ∃ rep, Model.Node.report m (if handled then 0xFF else 0x00) = .ok rep ∧
      compose rep = .ok [0x6C, 0x02, UInt8.ofNat v.toNat, if handled then 0xFF else 0x00, 0x00] := by
  have hp : passNum m "sessionID" = .ok (.num .pyint v) := by
    simp only [Msg.num?] at hs
    cases ha : m.attr "sessionID" with
    | none => rw [ha] at hs; cases hs
    | some x =>
      rw [ha] at hs
      cases x <;> simp at hs
      subst hs
      simp only [passNum, getAttr, ha]
  have := compose_of_layout
    (L := ⟨"Supervision.Report", 0x6C, 0x02, [.flag "moreStatusUpdates", .flag "wakeUpRequest", .num "sessionID" 6, .num "status" 8, .num "duration" 8]⟩)
    (List.mem_of_getElem? (i := 69) rfl) (d := Reg.Supervision.Report) (List.mem_of_getElem? (i := 82) rfl) rfl
    (a := arg1 "moreStatusUpdates" (.int 0) <| arg1 "wakeUpRequest" (.int 0) <| arg1 "sessionID" (.int v) <|
      arg1 "status" (.int (if handled then 0xFF else 0x00)) <| arg1 "duration" (.int 0) fun _ => none)
    (b := [0x6C, 0x02, UInt8.ofNat v.toNat, if handled then 0xFF else 0x00, 0x00])
    (by repeat' (first | (apply reserved_arg1 (by decide)) | (intro _ _; rfl))) (by
      obtain ⟨k, rfl⟩ := Int.eq_ofNat_of_zero_le h0
      have hk : ∀ k < 64, false :: false :: toBits 6 k = toBits 8 (k % 256) := by decide +kernel
      have hk := hk k (by omega)
      have : (k : Int) < 64 := h1
      cases handled <;> simp [Layout.wire, slotsWire, Slot.wire, arg1, this, bitsOf] <;>
        rw [← List.cons_append, ← List.cons_append, hk])
  simp only [argKw_arg1, argKw_none] at this
  obtain ⟨rep, e1, e2⟩ := this
  refine ⟨rep, ?_, e2⟩
  simp only [Model.Node.report, hp, bind, Except.bind]
  exact e1

/-- Handling a supervised command that is handled without an exception: the command is handled as if it had come alone, then exactly one report with the same
session id is sent, saying 0xFF if it was handled and 0x00 if not, and the result is the result of handling the command. -/
theorem C49_supervised_partial (e : Env σ) (w : World σ) (m c : Msg) (v : Int) (hm : m.hid = 0x6C01) (hc : m.command = some c)
    (hs : m.num? "sessionID" = some v) (h0 : 0 ≤ v) (h1 : v < 64) (hc' : c.hid ≠ 0x6C01) (b : Bool) (hb : (handleMessage e w c).2 = .ok b) :
    ∃ tr rep answer, (∀ ev ∈ tr, IsSent ev = false) ∧ (handleMessage e w c).1.trace = w.trace ++ tr ∧
      (handleMessage e w m).1.trace = w.trace ++ tr ++ [.sent rep answer] ∧
      compose rep = .ok [0x6C, 0x02, UInt8.ofNat v.toNat, if b then 0xFF else 0x00, 0x00] ∧
      (handleMessage e w m).2 = match answer with
        | .ok _ => .ok b
        | .error x => .error x := by
  obtain ⟨tr, t1, t2⟩ := C49_unsupervised_partial e w c hc'
  obtain ⟨rep, r1, r2⟩ := report_bytes m v hs h0 h1 b
  have hm1 : m.hid = Reg.Supervision.Get.hid := hm
  have hc1 : ¬ c.hid = Reg.Supervision.Get.hid := hc'
  simp only [handleMessage, if_neg hc1] at t1 hb
  refine ⟨tr, rep, (e.send rep (handlePlain e w c).1.user).2, t2, by simp only [handleMessage, if_neg hc1]; exact t1, ?_, r2, ?_⟩
  · simp only [handleMessage, if_pos hm1, hc, hb, answer, r1, t1]
  · simp only [handleMessage, if_pos hm1, hc, hb, answer, r1]
    cases (e.send rep (handlePlain e w c).1.user).2 <;> rfl

/-- If handling the command raises, no report is sent and the exception is passed on. -/
theorem C49_raising_partial (e : Env σ) (w : World σ) (m c : Msg) (hm : m.hid = 0x6C01) (hc : m.command = some c) (hc' : c.hid ≠ 0x6C01)
    (x : PyErr) (hx : (handleMessage e w c).2 = .error x) : handleMessage e w m = handleMessage e w c := by
  have hm1 : m.hid = Reg.Supervision.Get.hid := hm
  have hc1 : ¬ c.hid = Reg.Supervision.Get.hid := hc'
  simp only [handleMessage, if_neg hc1] at hx ⊢
  simp only [if_pos hm1, hc, hx]
  rw [← hx]

/-- A supervised binary switch report with session 5. -/
example : let m : Msg := .wrap 0x6C01 [("statusUpdates", .num .flag 1), ("-", .num (.reserved 1) 0), ("sessionID", .num (.bits 6) 5)] (.known 0x2503 [])
    decode [0x6C, 0x01, 0x85, 0x02, 0x25, 0x03] = .ok m ∧ (handleMessage sampleEnv ⟨Waiter.init, 0, []⟩ m).2 = .ok true ∧
    (handleMessage sampleEnv ⟨Waiter.init, 0, []⟩ m).1.trace.length = 4 := by decide +kernel

/-! ## C51, C52: the storage lock -/

/-- The operations of a history without nesting. -/
def Item.ops : Item → List StorageOp
  | .update => [.update]
  | .locked n => .enter :: List.replicate n .update ++ [.leave]

/-- The notifications expected: at once without the lock; at the end of a locked section if there was an update in it. -/
def Item.told : Item → List Bool
  | .update => [true]
  | .locked n => false :: List.replicate n false ++ [decide (0 < n)]

private def after (s : Storage) : List StorageOp → Storage
  | [] => s
  | o :: os => after (storageStep s o).1 os

private theorem storage_append (a b : List StorageOp) (s : Storage) : storageRun s (a ++ b) = storageRun s a ++ storageRun (after s a) b := by
  induction a generalizing s with
  | nil => rfl
  | cons o a ih => simp [storageRun, after, ih]

private theorem after_append (a b : List StorageOp) (s : Storage) : after s (a ++ b) = after (after s a) b := by
  induction a generalizing s with
  | nil => rfl
  | cons o a ih => simp [after, ih]

private theorem dirty_updates (n : Nat) : storageRun .lockedDirty (List.replicate n .update) = List.replicate n false ∧
    after .lockedDirty (List.replicate n .update) = .lockedDirty := by
  induction n with
  | zero => exact ⟨rfl, rfl⟩
  | succ n ih => simp [List.replicate_succ, storageRun, storageStep, after, ih]

/-- In every history without nested locks, nodeUpdated is told exactly when expected. -/
theorem C51_batching (items : List Item) : storageRun .clean (items.flatMap Item.ops) = items.flatMap Item.told := by
  induction items with
  | nil => rfl
  | cons i items ih =>
    have h : storageRun .clean (Item.ops i) = Item.told i ∧ after .clean (Item.ops i) = .clean := by
      cases i with
      | update => exact ⟨rfl, rfl⟩
      | locked n =>
        cases n with
        | zero => exact ⟨rfl, rfl⟩
        | succ n =>
          have e : Item.ops (.locked (n + 1)) = [.enter, .update] ++ (List.replicate n .update ++ [.leave]) := by simp [Item.ops, List.replicate_succ]
          rw [e]
          constructor
          · rw [storage_append, storage_append]
            simp [storageRun, storageStep, after, dirty_updates, Item.told, List.replicate_succ]
          · simp [storageStep, after, after_append, dirty_updates]
    rw [List.flatMap_cons, List.flatMap_cons, storage_append, h.1, h.2, ih]

/-- One update, a locked section with three, an empty one. -/
example : storageRun .clean [.update, .enter, .update, .update, .update, .leave, .enter, .leave] =
    [true, false, false, false, false, true, false, false] := by decide +kernel

/-- How deeply nested the lock is after a history. -/
def depth (ops : List StorageOp) : Int := ops.count .enter - ops.count .leave

/-- Locks are left only after they were entered. -/
def Nested (ops : List StorageOp) : Prop := ∀ n ≤ ops.length, 0 ≤ depth (ops.take n)

instance (ops : List StorageOp) : Decidable (Nested ops) := inferInstanceAs (Decidable (∀ n ≤ ops.length, _))

/-- The full property: when no lock is held after operation `j`, an update `i` before it has been told in between. -/
def C52_statement : Prop :=
  ∀ (ops : List StorageOp) (i j : Nat), Nested ops → ops[i]? = some .update → i ≤ j → j < ops.length → depth (ops.take (j + 1)) = 0 →
    ∃ k, i ≤ k ∧ k ≤ j ∧ (storageRun .clean ops)[k]? = some true

/-- Entering the lock again forgets the updates so far. -/
theorem C52_violated : ¬ C52_statement := by
  intro h
  obtain ⟨k, h1, h2, h3⟩ := h [.enter, .update, .enter, .leave, .leave] 1 4 (by decide +kernel) rfl (by omega) (by decide) (by decide +kernel)
  have : ∀ k, k ≤ 4 → (storageRun .clean [.enter, .update, .enter, .leave, .leave])[k]? ≠ some true := by decide +kernel
  exact this k h2 h3

private theorem run_length (s : Storage) (ops : List StorageOp) : (storageRun s ops).length = ops.length := by
  induction ops generalizing s with
  | nil => rfl
  | cons o ops ih => simp [storageRun, ih]

/-- What holds: in every history, nested or not, an update is told at once or when the lock is next left, unless the lock is entered in between. -/
theorem C52_not_reentered_partial (before between later : List StorageOp) (hb : ∀ o ∈ between, o = .update) :
    let told := storageRun .clean (before ++ .update :: (between ++ .leave :: later))
    told[before.length]? = some true ∨ told[before.length + 1 + between.length]? = some true := by
  simp only [storage_append, storageRun]
  generalize after .clean before = s
  rw [List.getElem?_append_right (by rw [run_length]; omega), List.getElem?_append_right (by rw [run_length]; omega), run_length]
  have hbe : between = List.replicate between.length .update := List.eq_replicate_iff.2 ⟨rfl, hb⟩
  cases s with
  | clean => left; simp [storageStep]
  | lockedClean =>
    right
    have e : before.length + 1 + between.length - before.length = (between.length) + 1 := by omega
    rw [e, List.getElem?_cons_succ, List.getElem?_append_right (by rw [run_length]; omega), run_length]
    rw [hbe]; simp [storageStep, dirty_updates]
  | lockedDirty =>
    right
    have e : before.length + 1 + between.length - before.length = (between.length) + 1 := by omega
    rw [e, List.getElem?_cons_succ, List.getElem?_append_right (by rw [run_length]; omega), run_length]
    rw [hbe]; simp [storageStep, dirty_updates]

example : (storageRun .clean ([.enter, .leave, .enter] ++ .update :: ([.update] ++ .leave :: [.leave])))[5]? = some true := by decide +kernel

end Props.Node

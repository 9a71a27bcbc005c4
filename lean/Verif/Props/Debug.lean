import Verif.Model.Debug
import Verif.Lemmas.Fields
import Verif.Lemmas.Text
import Verif.Spec.ClassNames
/-!
# Property theorems C127: describing messages

`debugString()` is called on whatever arrives; it must not raise, and it must show what arrived.
-/
namespace Props.Debug
open Spec Model Model.Debug

/-! ## Spec -/

/-- Value of a text in base `b`, by its digits. -/
def readBase (b : Nat) (s : Str) : Option Nat :=
  s.foldl (fun acc c => acc.bind fun a =>
    match "0123456789ABCDEF".toList.findIdx? (fun d => d = c) with
    | some d => if d < b then some (a * b + d) else none
    | none => none) (some 0)

/-- `s` is a part of `t`. -/
def Part (s t : Str) : Prop := ∃ u v, t = u ++ s ++ v

/-! ## Numbers -/

theorem digitX_read (b d : Nat) (hb : b ≤ 16) (hd : d < b) :
    (match "0123456789ABCDEF".toList.findIdx? (fun x => x = digitX d) with
      | some d => if d < b then some d else none | none => none) = some d := by
  have h16 : d < 16 := by omega
  have : "0123456789ABCDEF".toList.findIdx? (fun x => x = digitX d) = some d := by
    have key : ∀ d : Fin 16, "0123456789ABCDEF".toList.findIdx? (fun x => x = digitX d.val) = some d.val := by decide
    exact key ⟨d, h16⟩
  rw [this]
  simp [hd]

theorem readBase_append (b : Nat) (s : Str) (d : Nat) (n : Nat) (hb : b ≤ 16) (hd : d < b) (h : readBase b s = some n) :
    readBase b (s ++ [digitX d]) = some (n * b + d) := by
  unfold readBase at h ⊢
  rw [List.foldl_append, h]
  have := digitX_read b d hb hd
  simp only [List.foldl, Option.bind]
  split at this
  · split at this
    · injection this with this; rw [this]; rw [if_pos hd]
    · cases this
  · cases this

theorem readBase_baseStr (b : Nat) (h1 : 2 ≤ b) (hb : b ≤ 16) : ∀ (f n : Nat), n ≤ f → readBase b (baseStrF b f n) = some n := by
  have single : ∀ n, n < b → readBase b [digitX n] = some n := fun n hn => by
    have := readBase_append b [] n 0 hb hn rfl
    simpa using this
  intro f
  induction f with
  | zero =>
    intro n hn
    exact single n (by omega)
  | succ f ih =>
    intro n hn
    rw [baseStrF]
    split
    · exact single n ‹_›
    · rename_i hlt
      have hdiv : n / b ≤ f := by
        have : n / b < n := Nat.div_lt_self (by omega) (by omega)
        omega
      rw [readBase_append b _ _ (n / b) hb (Nat.mod_lt _ (by omega)) (ih _ hdiv), Nat.mul_comm, Nat.div_add_mod]

theorem readBase_zeros (b k : Nat) (s : Str) (hb : 2 ≤ b) : readBase b (List.replicate k '0' ++ s) = readBase b s := by
  induction k with
  | zero => rfl
  | succ k ih =>
    rw [← ih, List.replicate_succ, List.cons_append]
    have h0 : "0123456789ABCDEF".toList.findIdx? (fun d => d = '0') = some 0 := by decide
    simp only [readBase, List.foldl, Option.bind, h0]
    rw [if_pos (by omega)]
    simp

/-- **C127.** A number is shown by digits that have its value, in base 2 as in base 16, at any width. -/
theorem C127_digits (b w : Nat) (v : Nat) (h1 : 2 ≤ b) (h2 : b ≤ 16) : readBase b (fmt b w v) = some v := by
  simp only [fmt, Int.natAbs_natCast]
  rw [if_neg (by omega), readBase_zeros b _ _ h1]
  exact readBase_baseStr b h1 h2 v v (Nat.le_refl v)

/-! ## No exception -/

/-- Keys have an even number of bytes. -/
def Even : Val → Prop
  | .dsk b => b.length % 2 = 0
  | _ => True

theorem valText_ok (env : Env) (hid : Nat) (name : String) (i : Nat) (v : Val) (h : Even v) : ∃ t, valText env hid name i v = .ok t := by
  cases v with
  | dsk b =>
    have h : b.length % 2 = 0 := h
    exact ⟨pyJoin '-' ((words b).map pad5), by simp only [valText, dskGetState, dskGroups_ok b h, bind, Except.bind, pure, Except.pure]⟩
  | _ => exact ⟨_, rfl⟩

theorem fieldText_ok (env : Env) (hid i : Nat) (a : Dict String Val) (cmd : Option (Py Str)) (ha : ∀ n v, Dict.get? a n = some v → Even v)
    (hc : ∀ c, cmd = some c → ∃ t, c = .ok t) (f : Field) : ∃ e, fieldText env hid i a cmd f = .ok e := by
  unfold fieldText
  split
  · exact ⟨_, rfl⟩
  · exact ⟨_, rfl⟩
  · rename_i e he
    exfalso
    split at he
    · obtain ⟨t, ht⟩ := hc _ he
      cases ht
    · cases hg : Dict.get? a f.name with
      | none => rw [hg] at he; cases he
      | some v =>
        obtain ⟨t, ht⟩ := valText_ok env hid f.name i v (ha _ _ hg)
        rw [hg, Option.map, ht] at he
        cases he

theorem entries_ok (env : Env) (hid i : Nat) (a : Dict String Val) (cmd : Option (Py Str)) (ha : ∀ n v, Dict.get? a n = some v → Even v)
    (hc : ∀ c, cmd = some c → ∃ t, c = .ok t) : ∀ fs, ∃ es, entries env hid i a cmd fs = .ok es := by
  intro fs
  induction fs with
  | nil => exact ⟨_, rfl⟩
  | cons f fs ih =>
    obtain ⟨es, hes⟩ := ih
    obtain ⟨e, he⟩ := fieldText_ok env hid i a cmd ha hc f
    exact ⟨e.toList ++ es, by simp only [entries, he, hes, bind, Except.bind, pure, Except.pure]⟩

/-- All keys in a message and in the commands in it have an even number of bytes. -/
def EvenMsg : Msg → Prop
  | .wrap _ a c => (∀ n v, Dict.get? a n = some v → Even v) ∧ EvenMsg c
  | .known _ a => ∀ n v, Dict.get? a n = some v → Even v
  | _ => True

theorem debugString_ok (env : Env) (reg : List MsgDef) (m : Msg) (h : EvenMsg m) : ∀ i, ∃ t, debugString env reg m i = .ok t := by
  induction m with
  | pure => exact fun i => ⟨_, rfl⟩
  | unknown => exact fun i => ⟨_, rfl⟩
  | known hid a =>
    intro i
    obtain ⟨es, hes⟩ := entries_ok env hid i a none h (by simp) (fieldsOf reg hid)
    exact ⟨_, by rw [debugString, hes]; rfl⟩
  | wrap hid a c ih =>
    intro i
    obtain ⟨t, ht⟩ := ih h.2 (i + 1)
    obtain ⟨es, hes⟩ := entries_ok env hid i a (some (debugString env reg c (i + 1))) h.1 (by
      intro c' hc
      cases hc
      exact ⟨t, ht⟩) (fieldsOf reg hid)
    exact ⟨_, by rw [debugString, hes]; rfl⟩

theorem deserDskN_even {r r' : Reader} {n : Nat} {b : Bytes} (h : deserDskN r n = .ok (b, r')) : b.length % 2 = 0 := by
  unfold deserDskN at h
  split at h
  · cases h; rfl
  · split at h
    · cases h
    · rename_i hn
      have : n = 16 := Classical.byContradiction hn
      subst this
      by_cases hl : r.start / 8 + 16 ≤ r.data.length
      · rw [Reader.value_ok hl] at h
        injection h with h
        injection h with h
        rw [← h, List.length_take, List.length_drop]
        omega
      · rw [Reader.value_eof (by omega)] at h
        cases h

theorem readField_even {f : Field} {acc : Dict String Val} {r r' : Reader} {v : Val} (h : readField f acc r = .ok (v, r')) : Even v := by
  unfold readField at h
  split at h
  · rename_i hk _
    cases hk <;> simp only [runHook] at h
    case headerExtension =>
      split at h
      · split at h
        · cases h; trivial
        · obtain ⟨⟨_, _⟩, -, h⟩ := bind_ok h
          cases h; trivial
      · cases h; trivial
    case configValue =>
      obtain ⟨_, -, h⟩ := bind_ok h
      obtain ⟨⟨_, _⟩, -, h⟩ := bind_ok h
      cases h; trivial
    case nodeAddCommandClass =>
      obtain ⟨_, -, h⟩ := bind_ok h
      split at h
      · cases h; trivial
      · obtain ⟨⟨_, _⟩, -, h⟩ := bind_ok h
        cases h; trivial
    case agiCommandClass =>
      obtain ⟨⟨_, _⟩, -, h⟩ := bind_ok h
      obtain ⟨⟨_, _⟩, -, h⟩ := bind_ok h
      cases h; trivial
    case agiGroups =>
      obtain ⟨_, -, h⟩ := bind_ok h
      obtain ⟨⟨_, _⟩, -, h⟩ := bind_ok h
      cases h; trivial
    case dskN =>
      obtain ⟨_, -, h⟩ := bind_ok h
      obtain ⟨⟨_, _⟩, h1, h⟩ := bind_ok h
      cases h
      exact deserDskN_even h1
    case nodeFailing =>
      obtain ⟨⟨_, _⟩, -, h⟩ := bind_ok h
      cases h; trivial
    case supervisionCommand => cases h
  · cases ht : f.ty <;> rw [ht] at h <;> simp only [deserVal] at h
    case dsk =>
      obtain ⟨⟨_, _⟩, h1, h⟩ := bind_ok h
      cases h
      exact deserDskN_even h1
    case float =>
      unfold deserFloat at h
      obtain ⟨⟨_, _⟩, -, h⟩ := bind_ok h
      obtain ⟨⟨_, _⟩, -, h⟩ := bind_ok h
      obtain ⟨⟨_, _⟩, -, h⟩ := bind_ok h
      obtain ⟨⟨_, _⟩, -, h⟩ := bind_ok h
      cases h; trivial
    case nodes =>
      obtain ⟨_, -, h⟩ := bind_ok h
      cases h; trivial
    all_goals first
      | (cases h; done)
      | (cases h; trivial)
      | (obtain ⟨⟨_, _⟩, -, h⟩ := bind_ok h; cases h; trivial)

theorem coerce_even (t : FT) (v v' : Val) (h : Even v) (hc : coerce t v = .ok v') : Even v' := by
  cases v <;> simp only [coerce] at hc
  case metaExt => split at hc <;> cases hc; trivial
  case hdr => split at hc <;> cases hc; trivial
  all_goals (cases hc; first | trivial | exact h)

theorem parseFields_cmd {P : Msg → Prop} {dec : Reader → Py (Msg × Reader)} (hdec : ∀ r m r', dec r = .ok (m, r') → P m) {all : List Field} :
    ∀ (fs : List Field) (r : Reader) (acc A : Dict String Val) (c : Msg) (r' : Reader), parseFields all dec fs r acc = .ok (A, some c, r') → P c := by
  intro fs
  induction fs with
  | nil => intro r acc A c r' h; cases h
  | cons f fs ih =>
    intro r acc A c r' h
    by_cases hb : r.bytesLeft = 0
    · simp only [parseFields, if_pos hb] at h; cases h
    · by_cases hm : f.ty = .message
      · simp only [parseFields, if_neg hb, if_pos hm] at h
        split at h
        · obtain ⟨⟨_, _⟩, -, h⟩ := bind_ok h
          obtain ⟨⟨_, _⟩, -, h⟩ := bind_ok h
          obtain ⟨⟨_, _⟩, h1, h⟩ := bind_ok h
          cases h; exact hdec _ _ _ h1
        · obtain ⟨⟨_, _⟩, h1, h⟩ := bind_ok h
          cases h; exact hdec _ _ _ h1
      · rw [parseFields_step hm hb] at h
        obtain ⟨⟨v, r1⟩, -, h⟩ := bind_ok h
        obtain ⟨v', -, h⟩ := bind_ok h
        exact ih _ _ _ _ _ h

theorem deserMsg_even : ∀ (k : Nat) (r : Reader) (m : Msg) (r' : Reader), deserMsg registry k r = .ok (m, r') → EvenMsg m := by
  intro k
  induction k with
  | zero => intro r m r' h; cases h
  | succ k ih =>
    intro r m r' h
    rw [deserMsg] at h
    split at h
    · cases h; trivial
    · obtain ⟨⟨cc, r1⟩, -, h⟩ := bind_ok h
      obtain ⟨⟨cmd, r2⟩, -, h⟩ := bind_ok h
      simp only at h
      split at h
      · cases h; trivial
      · obtain ⟨⟨A, c, r3⟩, h3, h⟩ := bind_ok h
        have ha := parseFields_attrs (P := Even) (fun f acc r v r' h => readField_even h) coerce_even _ _ _ _ _ _ (by simp) h3
        cases c with
        | none => simp only [pure, Except.pure] at h; cases h; exact ha
        | some c =>
          simp only [pure, Except.pure] at h; cases h
          exact ⟨ha, parseFields_cmd (P := EvenMsg) (fun r m r' h => ih r m r' h) _ _ _ _ _ _ h3⟩

/-- **C127.** Whatever can be decoded can be described, at any indentation. -/
theorem C127_received (env : Env) (pkt : Bytes) (m : Msg) (i : Nat) (h : decode pkt = .ok m) : ∃ t, debugString env registry m i = .ok t := by
  obtain ⟨⟨m', r⟩, h1, h2⟩ := bind_ok h
  cases h2
  exact debugString_ok env registry m (deserMsg_even _ _ _ _ h1) i

theorem initAttrs_even (kw : String → Option Val) : ∀ (fs : List Field) (acc A : Dict String Val), (∀ n v, Dict.get? acc n = some v → Even v) →
    initAttrs kw fs acc = .ok A → ∀ n v, Dict.get? A n = some v → Even v := by
  intro fs
  induction fs with
  | nil => intro acc A ha h; cases h; exact ha
  | cons f fs ih =>
    intro acc A ha h
    rw [initAttrs] at h
    split at h
    · exact ih _ _ ha h
    · rename_i v _
      obtain ⟨v', h1, h⟩ := bind_ok h
      refine ih _ _ ?_ h
      intro n w hw
      rw [Dict.get?_set] at hw
      split at hw
      · cases hw
        unfold coerceInit at h1
        split at h1
        all_goals first
          | (cases h1; done)
          | (cases h1; trivial)
          | (split at h1 <;> cases h1; trivial)
          | exact coerce_even _ _ _ (by trivial) h1
          | skip
        · split at h1
          · cases h1
            rename_i hl
            show _ % 2 = 0
            omega
          · cases h1
      · exact ha n w hw

/-- **C127.** The same for every message that was made from arguments. -/
theorem C127_constructed (env : Env) (d : MsgDef) (kw : String → Option Val) (m : Msg) (i : Nat) (h : construct d kw = .ok m) :
    ∃ t, debugString env registry m i = .ok t := by
  obtain ⟨A, h1, h⟩ := bind_ok h
  cases h
  have := initAttrs_even kw _ _ _ (by simp) h1
  exact debugString_ok env registry (.known d.hid A) this i

/-! ## What is shown -/

theorem join_part (es : List Str) (e : Str) (h : e ∈ es) : ∃ u v, '\n' :: pyJoin '\n' es = u ++ '\n' :: e ++ v := by
  induction es with
  | nil => cases h
  | cons x xs ih =>
    cases xs with
    | nil =>
      have : e = x := by simpa using h
      subst this
      exact ⟨[], [], by simp [pyJoin]⟩
    | cons y ys =>
      rcases List.mem_cons.mp h with rfl | h
      · exact ⟨[], '\n' :: pyJoin '\n' (y :: ys), by simp [pyJoin]⟩
      · obtain ⟨u, v, huv⟩ := ih h
        exact ⟨'\n' :: x ++ u, v, by
          rw [pyJoin, List.append_assoc, List.append_assoc, ← List.append_assoc u, ← huv, List.cons_append]
          simp⟩

theorem block_part (t : Str) (es : List Str) (e : Str) (h : e ∈ es) : Part ('\n' :: e) (block t es) := by
  obtain ⟨u, v, huv⟩ := join_part es e h
  refine ⟨t ++ [':'] ++ u, v, ?_⟩
  rw [List.append_assoc (t ++ [':']), List.append_assoc (t ++ [':']), ← huv]
  simp [block]

theorem entries_mem (env : Env) (hid i : Nat) (a : Dict String Val) (cmd : Option (Py Str)) (f : Field) (e : Str)
    (he : fieldText env hid i a cmd f = .ok (some e)) : ∀ (fs : List Field) (es : List Str), f ∈ fs → entries env hid i a cmd fs = .ok es → e ∈ es := by
  intro fs
  induction fs with
  | nil => intro es hf; cases hf
  | cons g gs ih =>
    intro es hf h
    rw [entries] at h
    obtain ⟨x, h1, h⟩ := bind_ok h
    obtain ⟨xs, h2, h⟩ := bind_ok h
    cases h
    rcases List.mem_cons.mp hf with rfl | hf
    · rw [he] at h1
      cases h1
      simp
    · exact List.mem_append_right _ (ih _ hf h2)

/-- The attributes that a message got are among those of its class. -/
theorem parseFields_names {dec : Reader → Py (Msg × Reader)} {all : List Field} :
    ∀ (fs : List Field) (r : Reader) (acc A : Dict String Val) (c : Option Msg) (r' : Reader), parseFields all dec fs r acc = .ok (A, c, r') →
      (∀ n v, Dict.get? A n = some v → (∃ w, Dict.get? acc n = some w) ∨ ∃ f ∈ fs, f.name = n ∧ f.ty ≠ .message) ∧
      (∀ m, c = some m → ∃ f ∈ fs, f.ty = .message) := by
  intro fs
  induction fs with
  | nil => intro r acc A c r' h; cases h; exact ⟨fun n v h => .inl ⟨v, h⟩, by simp⟩
  | cons f fs ih =>
    intro r acc A c r' h
    by_cases hb : r.bytesLeft = 0
    · simp only [parseFields, if_pos hb] at h; cases h
      exact ⟨fun n v h => .inl ⟨v, h⟩, by simp⟩
    · by_cases hm : f.ty = .message
      · have hA : A = acc := by
          simp only [parseFields, if_neg hb, if_pos hm] at h
          split at h
          · obtain ⟨⟨_, _⟩, -, h⟩ := bind_ok h
            obtain ⟨⟨_, _⟩, -, h⟩ := bind_ok h
            obtain ⟨⟨_, _⟩, -, h⟩ := bind_ok h
            cases h; rfl
          · obtain ⟨⟨_, _⟩, -, h⟩ := bind_ok h
            cases h; rfl
        subst hA
        exact ⟨fun n v h => .inl ⟨v, h⟩, fun _ _ => ⟨f, by simp, hm⟩⟩
      · rw [parseFields_step hm hb] at h
        obtain ⟨⟨v, r1⟩, -, h⟩ := bind_ok h
        obtain ⟨v', -, h⟩ := bind_ok h
        obtain ⟨h1, h2⟩ := ih _ _ _ _ _ h
        refine ⟨fun n w hw => ?_, fun m hc => ?_⟩
        · rcases h1 n w hw with ⟨u, hu⟩ | ⟨g, hg, hgn⟩
          · rw [Dict.get?_set] at hu
            split at hu
            · exact .inr ⟨f, by simp, by assumption, hm⟩
            · exact .inl ⟨u, hu⟩
          · exact .inr ⟨g, by simp [hg], hgn⟩
        · obtain ⟨g, hg, hgm⟩ := h2 m hc
          exact ⟨g, by simp [hg], hgm⟩

theorem decode_names {pkt : Bytes} {m : Msg} (h : decode pkt = .ok m) :
    (∀ n v, m.attr n = some v → ∃ f ∈ fieldsOf registry m.hid, f.name = n ∧ f.ty ≠ .message) ∧
    (∀ c, m.command = some c → ∃ f ∈ fieldsOf registry m.hid, f.ty = .message) := by
  obtain ⟨⟨m', r⟩, h, h2⟩ := bind_ok h
  cases h2
  rw [deserMsg] at h
  split at h
  · cases h; exact ⟨by simp [Msg.attr, Msg.attrs], by simp [Msg.command]⟩
  · obtain ⟨⟨cc, r1⟩, -, h⟩ := bind_ok h
    obtain ⟨⟨cmd, r2⟩, -, h⟩ := bind_ok h
    simp only at h
    split at h
    · cases h; exact ⟨by simp [Msg.attr, Msg.attrs], by simp [Msg.command]⟩
    · rename_i d hd
      obtain ⟨⟨A, c, r3⟩, h3, h⟩ := bind_ok h
      obtain ⟨k1, k2⟩ := parseFields_names _ _ _ _ _ _ h3
      have hf : fieldsOf registry (cc.toNat <<< 8 ||| cmd.toNat &&& 0xFF) = d.fields := by rw [fieldsOf, hd]
      cases c with
      | none =>
        simp only [pure, Except.pure] at h; cases h
        refine ⟨fun n v hv => ?_, by simp [Msg.command]⟩
        rcases k1 n v hv with ⟨w, hw⟩ | k
        · simp at hw
        · rw [Msg.hid, hf]; exact k
      | some c =>
        simp only [pure, Except.pure] at h; cases h
        refine ⟨fun n v hv => ?_, fun _ _ => ?_⟩
        · rcases k1 n v hv with ⟨w, hw⟩ | k
          · simp at hw
          · rw [Msg.hid, hf]; exact k
        · rw [Msg.hid, hf]; exact k2 c rfl

/-- **C127.** The description of a received message has a line for each attribute it got, with the text of its value. -/
theorem C127_shown (env : Env) (pkt : Bytes) (m : Msg) (i : Nat) (h : decode pkt = .ok m) (n : String) (v : Val) (hv : m.attr n = some v) :
    ∃ t s, debugString env registry m i = .ok t ∧ valText env m.hid n i v = .ok s ∧
      Part ('\n' :: List.replicate (i + 1) '\t' ++ n.toList ++ " = ".toList ++ s) t := by
  obtain ⟨t, ht⟩ := C127_received env pkt m i h
  obtain ⟨f, hf, hn, hty⟩ := (decode_names h).1 n v hv
  have hev : Even v := decode_attrs (P := Even) (fun f acc r v r' h => readField_even h) coerce_even h n v hv
  obtain ⟨s, hs⟩ := valText_ok env m.hid n i v hev
  refine ⟨t, s, ht, hs, ?_⟩
  have key : ∀ cmd, fieldText env m.hid i m.attrs cmd f = .ok (some (entry i n.toList s)) := by
    intro cmd
    have hg : Dict.get? m.attrs f.name = some v := by rw [hn]; exact hv
    simp only [fieldText, if_neg hty, hg, Option.map]
    rw [hn, hs]
  cases m with
  | pure => simp [Msg.attr, Msg.attrs] at hv
  | unknown => simp [Msg.attr, Msg.attrs] at hv
  | known hid a =>
    rw [debugString] at ht
    obtain ⟨es, hes, ht⟩ := bind_ok ht
    cases ht
    have := block_part (title registry (.known hid a)) es _ (entries_mem env hid i a none f _ (key none) _ _ hf hes)
    simpa [entry, tabs] using this
  | wrap hid a c =>
    rw [debugString] at ht
    obtain ⟨es, hes, ht⟩ := bind_ok ht
    cases ht
    have := block_part (title registry (.wrap hid a c)) es _ (entries_mem env hid i a _ f _ (key _) _ _ hf hes)
    simpa [entry, tabs] using this

/-- **C127.** A command inside is described below it, one step further in. -/
theorem C127_command (env : Env) (pkt : Bytes) (m c : Msg) (i : Nat) (h : decode pkt = .ok m) (hc : m.command = some c) :
    ∃ t s, debugString env registry m i = .ok t ∧ debugString env registry c (i + 1) = .ok s ∧
      Part ('\n' :: List.replicate (i + 1) '\t' ++ "command = ".toList ++ s) t := by
  obtain ⟨t, ht⟩ := C127_received env pkt m i h
  obtain ⟨f, hf, hty⟩ := (decode_names h).2 c hc
  have hname : f.name = "command" := by
    have all : ∀ d ∈ registry, ∀ f ∈ d.fields, f.ty = .message → f.name = "command" := by decide +kernel
    unfold fieldsOf at hf
    split at hf
    · rename_i d hd
      exact all d (List.mem_of_find?_eq_some hd) f hf hty
    · cases hf
  cases m with
  | wrap hid a c' =>
    have : c' = c := by simpa [Msg.command] using hc
    subst this
    obtain ⟨⟨m', r⟩, h1, h2⟩ := bind_ok h
    cases h2
    obtain ⟨s, hs⟩ := debugString_ok env registry c' (deserMsg_even _ _ _ _ h1).2 (i + 1)
    refine ⟨t, s, ht, hs, ?_⟩
    rw [debugString] at ht
    obtain ⟨es, hes, ht⟩ := bind_ok ht
    cases ht
    have key : fieldText env hid i a (some (debugString env registry c' (i + 1))) f = .ok (some (entry i "command".toList s)) := by
      simp only [fieldText, if_pos hty, hs, hname]
    have := block_part (title registry (.wrap hid a c')) es _ (entries_mem env hid i a _ f _ key _ _ hf hes)
    simpa [entry, tabs] using this
  | _ => simp [Msg.command] at hc

/-- **C127.** The texts of numbers: an unsigned number of one or more bytes in hexadecimal and in decimal, bits in binary, a flag as a truth value,
all others in decimal. -/
theorem C127_numbers (env : Env) (hid : Nat) (n : String) (i k : Nat) (v : Nat) (he : env.enumOf hid n = none) :
    (∃ h d, valText env hid n i (.num (.uint k) v) = .ok ("0x".toList ++ h ++ " (".toList ++ d ++ ")".toList) ∧ readBase 16 h = some v ∧ pyInt d = .ok v) ∧
    (∃ b, valText env hid n i (.num (.bits k) v) = .ok ("bits_t(".toList ++ b ++ ")".toList) ∧ readBase 2 b = some v) ∧
    (∃ b, valText env hid n i (.num (.reserved k) v) = .ok ("bits_t(".toList ++ b ++ ")".toList) ∧ readBase 2 b = some v) ∧
    (∃ d, valText env hid n i (.num (.ubits k) v) = .ok d ∧ pyInt d = .ok v) ∧
    valText env hid n i (.num .flag 0) = .ok "flag_t(False)".toList ∧ valText env hid n i (.num .flag 1) = .ok "flag_t(True)".toList := by
  have h16 := C127_digits 16 k v (by decide) (by decide)
  have h2 := C127_digits 2 k v (by decide) (by decide)
  have hd := pyInt_intStr (v : Int)
  have key : ∀ t w, valText env hid n i (.num t w) = .ok (numText t w) := fun t w => by rw [valText, he]
  refine ⟨⟨fmt 16 k v, intStr v, (key _ _).trans ?_, h16, hd⟩, ⟨fmt 2 k v, (key _ _).trans ?_, h2⟩, ⟨fmt 2 k v, (key _ _).trans ?_, h2⟩, ⟨intStr v, (key _ _).trans ?_, hd⟩,
    (key _ _).trans ?_, (key _ _).trans ?_⟩
  all_goals refine congrArg Except.ok ?_; unfold numText
  · exact Eq.refl _
  · exact Eq.refl _
  · exact Eq.refl _
  · exact Eq.refl _
  · exact if_neg (by decide)
  · exact if_pos (by decide)

/-- **C127.** An enumeration is shown by its name; a value that the enumeration does not define does not raise. -/
theorem C127_enum (env : Env) (hid : Nat) (n : String) (i : Nat) (t : FT) (v : Nat) (f : Int → Option Str) (he : env.enumOf hid n = some (.names f)) :
    ∃ h, valText env hid n i (.num t v) = .ok ((f v).getD "UNKNOWN".toList ++ " (0x".toList ++ h ++ ")".toList) ∧ readBase 16 h = some v := by
  refine ⟨fmt 16 0 v, ?_, C127_digits 16 0 v (by decide) (by decide)⟩
  simp only [valText, he, enumText]
  cases f v <;> rfl

/-- **C127.** The first line names the command class and the command, by number if they have no name. -/
theorem C127_title (env : Env) (m : Msg) (i : Nat) (t : Str) (h : debugString env registry m i = .ok t) :
    ∃ cls name rest, t = "<Z-Wave ".toList ++ cls ++ ".".toList ++ name ++ ">".toList ++ ":\n".toList ++ rest ∧
      (∀ d, registry.find? (fun d => d.hid = m.hid) = some d → m ≠ .pure → (∀ h, m ≠ .unknown h) → name = d.msgName.toList) ∧
      (∀ k, m = .unknown k → ∃ x, name = "0x".toList ++ x ∧ readBase 16 x = some (k % 256)) := by
  have hb : ∃ es, t = block (title registry m) es := by
    cases m with
    | pure => cases h; exact ⟨_, rfl⟩
    | unknown => cases h; exact ⟨_, rfl⟩
    | known hid a => rw [debugString] at h; obtain ⟨es, -, h⟩ := bind_ok h; cases h; exact ⟨_, rfl⟩
    | wrap hid a c => rw [debugString] at h; obtain ⟨es, -, h⟩ := bind_ok h; cases h; exact ⟨_, rfl⟩
  obtain ⟨es, rfl⟩ := hb
  refine ⟨className m, commandName registry m, pyJoin '\n' es, ?_, ?_, ?_⟩
  · unfold block title
    exact Eq.refl _
  · intro d hd h1 h2
    cases m with
    | pure => exact absurd rfl h1
    | unknown k => exact absurd rfl (h2 k)
    | known hid a => simp only [commandName, hd, Option.map]
    | wrap hid a c => simp only [commandName, hd, Option.map]
  · rintro k rfl
    refine ⟨_, rfl, ?_⟩
    rw [C127_digits 16 2 _ (by decide) (by decide)]
    show some (k &&& 255) = _
    rw [show (255 : Nat) = 2 ^ 8 - 1 from rfl, Nat.and_two_pow_sub_one_eq_mod]

theorem class_table : ∀ c : Fin 256, ((∃ d ∈ registry, d.hid / 256 = c.val) ∧ c.val ≠ 0x8E → ∃ p ∈ zwClasses, p.1 = c.val ∧ Dict.get? classNames c.val = some p.2) ∧
    (¬ (∃ d ∈ registry, d.hid / 256 = c.val) ∨ c.val = 0x8E → Dict.get? classNames c.val = none) := by decide +kernel

theorem shift_class (n : Nat) : (n >>> 8) &&& 0xFF = n / 256 % 256 := by
  rw [show (0xFF : Nat) = 2 ^ 8 - 1 from rfl, Nat.and_two_pow_sub_one_eq_mod, Nat.shiftRight_eq_div_pow]

/-- **C127.** The class in the first line: its name in Z-Wave if there are messages of that class, else its number. The messages of MULTI_CHANNEL_ASSOCIATION, whose name is not registered, go
by number too. -/
theorem C127_class (env : Env) (m : Msg) (i : Nat) (t : Str) (h : debugString env registry m i = .ok t) :
    ∃ cls rest, t = "<Z-Wave ".toList ++ cls ++ ".".toList ++ rest ∧
      ((∃ d ∈ registry, d.hid / 256 = m.hid / 256 % 256) ∧ m.hid / 256 % 256 ≠ 0x8E → IsClassName (m.hid / 256 % 256) cls) ∧
      (¬ (∃ d ∈ registry, d.hid / 256 = m.hid / 256 % 256) ∨ m.hid / 256 % 256 = 0x8E → ∃ x, cls = "0x".toList ++ x ∧ readBase 16 x = some (m.hid / 256 % 256)) := by
  have hb : ∃ es, t = block (title registry m) es := by
    cases m with
    | pure => cases h; exact ⟨_, rfl⟩
    | unknown => cases h; exact ⟨_, rfl⟩
    | known hid a => rw [debugString] at h; obtain ⟨es, -, h⟩ := bind_ok h; cases h; exact ⟨_, rfl⟩
    | wrap hid a c => rw [debugString] at h; obtain ⟨es, -, h⟩ := bind_ok h; cases h; exact ⟨_, rfl⟩
  obtain ⟨es, rfl⟩ := hb
  have hs := shift_class m.hid
  have tab := class_table ⟨m.hid / 256 % 256, Nat.mod_lt _ (by decide)⟩
  dsimp only at tab
  refine ⟨className m, commandName registry m ++ ">".toList ++ ":\n".toList ++ pyJoin '\n' es, ?_, ?_, ?_⟩
  · unfold block title
    generalize commandName registry m = x
    generalize className m = y
    simp
  · intro hm
    obtain ⟨p, hp, h1, h2⟩ := tab.1 hm
    refine ⟨p.2, ?_, ?_⟩
    · rw [← h1]; exact hp
    · rw [className, hs, h2]
  · intro hm
    refine ⟨fmt 16 2 ((m.hid >>> 8) &&& 0xFF : Nat), ?_, ?_⟩
    · rw [className, hs, tab.2 hm]
    · rw [C127_digits 16 2 _ (by decide) (by decide), hs]

theorem fmt_length (b w : Nat) (v : Nat) : w ≤ (fmt b w v).length := by
  simp only [fmt, Int.natAbs_natCast]
  rw [if_neg (by omega), List.length_append, List.length_replicate]
  omega

/-- **C127.** A header option that gives a delay is shown in decimal, and a number in a maintenance report in hexadecimal and in decimal, the transmission time with at least two digits. -/
theorem C127_options (env : Env) (ty i : Nat) (v : Nat) :
    (∃ d, optText env i (.delay v) = d ∧ pyInt d = .ok (v : Int)) ∧
    (∃ h d, imeText env ty i (.num v) = "0x".toList ++ h ++ " (".toList ++ d ++ ")".toList ∧ readBase 16 h = some v ∧ pyInt d = .ok v ∧ (ty = 1 → 2 ≤ h.length)) := by
  refine ⟨⟨intStr v, ?_, pyInt_intStr v⟩, ⟨fmt 16 (if ty = 1 then 2 else 1) v, intStr v, ?_, C127_digits _ _ _ (by decide) (by decide), pyInt_intStr v, ?_⟩⟩
  · unfold optText
    exact Eq.refl _
  · unfold imeText numText
    exact Eq.refl _
  · rintro rfl
    exact fmt_length _ _ _

/-- Python's `repr` is irrelevant for these texts. -/
def plainEnv : Env := ⟨fun _ => [], fun _ => [], fun _ => [], fun _ _ => [], fun _ _ => none⟩

/-- The texts in tests/test_message.py:50-78 and tests/test_types.py:44-54. -/
example : (debugString plainEnv registry (.known 0x2003 []) 0) = .ok "<Z-Wave BASIC.REPORT>:\n".toList := by decide +kernel
example : (debugString plainEnv registry (.known 0x2003 [("value", .num (.uint 1) 255)]) 0) = .ok "<Z-Wave BASIC.REPORT>:\n\tvalue = 0xFF (255)".toList := by decide +kernel
example : (decode [0x23, 0x02, 0x80, 0x50, 0x01, 0x03, 0x00, 0x20, 0x02] >>= fun m => debugString plainEnv registry m 0) = .ok
    ("<Z-Wave ZIP.ZIP_PACKET>:\n\tackRequest = flag_t(True)\n\tackResponse = flag_t(False)\n\tnackResponse = flag_t(False)\n\tnackWaiting = flag_t(False)\n" ++
      "\tnackQueueFull = flag_t(False)\n\tnackOptionError = flag_t(False)\n\t_ = bits_t(00)\n\theaderExtIncluded = flag_t(False)\n\tzwCmdIncluded = flag_t(True)\n" ++
      "\tmoreInformation = flag_t(False)\n\tsecureOrigin = flag_t(True)\n\t_ = bits_t(00)\n\tseqNo = 0x1 (1)\n\t- = bits_t(0)\n\tsourceEP = 3\n\t- = bits_t(0)\n\tdestEP = 0\n" ++
      "\theaderExtension = HeaderExtension:\n\n\tcommand = <Z-Wave BASIC.GET>:\n").toList := by decide +kernel
example : debugString plainEnv registry (.known 0x8E02 []) 0 = .ok "<Z-Wave 0x8E.MULTICHANNEL_GET>:\n".toList := by decide +kernel
example : debugString plainEnv registry (.unknown 0) 0 = .ok "<Z-Wave 0x00.0x00>:\n".toList := by decide +kernel
example : numText (.bits 1) 1 = "bits_t(1)".toList ∧ numText (.bits 2) 2 = "bits_t(10)".toList ∧ numText (.bits 4) 3 = "bits_t(0011)".toList := by decide +kernel

/-- A key of odd length would raise; `dsk_t(b"...")` makes one, but no message holds it. -/
example : valText plainEnv 0x7804 "dsk" 0 (.dsk [1, 2, 3]) = .error .index := by decide +kernel

end Props.Debug

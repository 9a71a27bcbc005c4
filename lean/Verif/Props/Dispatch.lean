import Verif.Model.Dispatch
import Verif.Lemmas.Dict
import Verif.Props.Debug
import Verif.Props.Node
/-!
# Property theorems C128: command class objects and the methods of their listeners
-/
namespace Props.Dispatch
open Spec Model Model.Dispatch Model.Node

/-! ## Objects -/

/-- **C128.** Whatever number a node names, the object for it says that it is the class with that number, and keeps what was said about its security. -/
theorem C128_id (c : Nat) (s : Bool) : (load c s).id = c ∧ (load c s).securityS0 = s := by
  have key : ∀ p ∈ registered.1, registered.2.get? p.2 = some p.1 := by decide +kernel
  unfold load
  split
  · rename_i k hk
    exact ⟨by simp only [Obj.id, key _ (Dict.mem_of_get? hk)]; rfl, rfl⟩
  · exact ⟨rfl, rfl⟩

/-- Only the classes with a Python class of their own have handlers. -/
example : (load 0x70 true).id = 0x70 ∧ (load 0x70 true).name = "CONFIGURATION".toList ∧ (load 0x25 false).id = 0x25 ∧
    (load 0x25 false).name = "UNKNOWN (0x25)".toList ∧ (load 0x70 true).handles = [Reg.Configuration.Report] := by decide +kernel

/-- **C128.** The command classes with a Python class of their own get an object of it, and no others do. -/
theorem C128_object (c : Nat) (s : Bool) (name : String) : (∃ k, load c s = .known k s ∧ k.module = name) ↔ (c, name) ∈ Spec.ownClasses := by
  have key : ∀ p ∈ registered.1, (p.1, p.2.module) ∈ Spec.ownClasses := by decide +kernel
  have back : ∀ p ∈ Spec.ownClasses, ∃ q ∈ registered.1, registered.1.get? p.1 = some q.2 ∧ q.2.module = p.2 := by decide +kernel
  constructor
  · rintro ⟨k, h, rfl⟩
    unfold load at h
    split at h
    · rename_i x hx
      cases h
      exact key _ (Dict.mem_of_get? hx)
    · cases h
  · intro h
    obtain ⟨q, -, h1, h2⟩ := back _ h
    exact ⟨q.2, by simp only [load, h1], h2⟩

/-- **C128.** Their name is that of the command class. -/
theorem C128_class_name (c : Nat) (s : Bool) (k : Cls) (h : load c s = .known k s) : (c, k.NAME) ∈ Spec.zwClasses := by
  have key : ∀ p ∈ registered.1, (p.1, p.2.NAME) ∈ Spec.zwClasses := by decide +kernel
  unfold load at h
  split at h
  · rename_i x hx
    cases h
    exact key _ (Dict.mem_of_get? hx)
  · cases h

/-- The name of an unknown class, with its fixed parts. -/
theorem name_unknown (pre post : Str) (c d : Nat) (h : pre ++ Debug.fmt 16 0 c ++ post = pre ++ Debug.fmt 16 0 d ++ post) : c = d := by
  have h' := List.append_cancel_left (List.append_cancel_right h)
  have h1 := Debug.C127_digits 16 0 c (by decide) (by decide)
  have h2 := Debug.C127_digits 16 0 d (by decide) (by decide)
  rw [h'] at h1
  exact Option.some.inj (h1.symm.trans h2)

/-- A known name is not an unknown one. -/
theorem name_known (pre post w x : Str) (n : Nat) (hw : w.take pre.length ≠ pre) (hx : x = pre ++ Debug.fmt 16 0 n ++ post) : w ≠ x := by
  rintro rfl
  rw [hx, List.append_assoc, List.take_append_of_le_length (Nat.le_refl _), List.take_length] at hw
  exact hw rfl

/-- **C128.** Two different command classes never have the same name. -/
theorem C128_name (c d : Nat) (s t : Bool) (h : (load c s).name = (load d t).name) : c = d := by
  have e1 : ∀ p ∈ registered.1, ∀ q ∈ registered.1, p.2.NAME.toList = q.2.NAME.toList → p.1 = q.1 := by decide +kernel
  have e2 : ∀ p ∈ registered.1, p.2.NAME.toList.take "UNKNOWN (0x".toList.length ≠ "UNKNOWN (0x".toList := by decide +kernel
  unfold load at h
  split at h <;> split at h
  · rename_i k hk _ l hl
    exact e1 _ (Dict.mem_of_get? hk) _ (Dict.mem_of_get? hl) h
  · rename_i k hk _ _
    exact (name_known _ _ _ _ d (e2 _ (Dict.mem_of_get? hk)) (by unfold Obj.name; exact Eq.refl _) h).elim
  · rename_i _ _ l hl
    exact (name_known _ _ _ _ c (e2 _ (Dict.mem_of_get? hl)) (by unfold Obj.name; exact Eq.refl _) h.symm).elim
  · unfold Obj.name at h
    exact name_unknown _ _ c d h

/-- **C128.** A handler of a class is a handler for one of its own messages. A message is only given to the class with its number, so no handler is there in vain. -/
theorem C128_handlers (c : Nat) (s : Bool) (d : MsgDef) (h : d ∈ (load c s).handles) : d ∈ registry ∧ d.cc = c := by
  have key : ∀ p ∈ registered.1, ∀ d ∈ (Obj.known p.2 true).handles, d ∈ registry ∧ d.cc = p.1 := by decide +kernel
  unfold load at h
  split at h
  · rename_i k hk
    exact key _ (Dict.mem_of_get? hk) d h
  · cases h

/-! ## Method names -/

/-- The words of a name. -/
def Words (name : Str) (ws : List Str) : Prop := name = pyJoin '_' ws ∧ ∀ w ∈ ws, '_' ∉ w

/-- A word with a capital letter at its start only. -/
def title (w : Str) : Str :=
  match w with
  | [] => []
  | c :: r => c.toUpper :: r.map Char.toLower

theorem camel_word (w : Str) (r : Str) (h : '_' ∉ w) : camel false (w ++ r) = w.map Char.toLower ++ camel false r := by
  induction w with
  | nil => rfl
  | cons c w ih =>
    have hc : c ≠ '_' := fun e => h (by simp [e])
    have := ih (fun hm => h (List.mem_cons_of_mem _ hm))
    simp [camel, hc, this]

theorem camel_title (w : Str) (ws : List Str) (h : '_' ∉ w) : camel true (pyJoin '_' (w :: ws)) = title w ++ camel true (pyJoin '_' ws) := by
  cases w with
  | nil => cases ws <;> simp [pyJoin, camel, title]
  | cons c w =>
    have hc : c ≠ '_' := fun e => h (by simp [e])
    have hw : '_' ∉ w := fun hm => h (List.mem_cons_of_mem _ hm)
    cases ws with
    | nil =>
      have := camel_word w [] hw
      simp only [List.append_nil] at this
      simp [pyJoin, camel, title, hc, this]
    | cons v ws =>
      have := camel_word w ('_' :: pyJoin '_' (v :: ws)) hw
      simp [pyJoin, camel, title, hc, this]

theorem camel_words (ws : List Str) (h : ∀ w ∈ ws, '_' ∉ w) : camel true (pyJoin '_' ws) = ws.flatMap title := by
  induction ws with
  | nil => simp [pyJoin, camel]
  | cons w ws ih =>
    rw [camel_title w ws (h w List.mem_cons_self), ih (fun v hv => h v (List.mem_cons_of_mem _ hv))]
    rfl

/-- **C128.** The method for a message is called `on` followed by the words of its NAME, each with a capital letter at its start only. -/
theorem C128_method (name : String) (ws : List Str) (h : Words name.toList ws) : methodName name = String.ofList ("on".toList ++ ws.flatMap title) := by
  unfold methodName
  rw [h.1, camel_words ws h.2, String.ofList_append, String.ofList_toList]

example : methodName "GROUP_NAME_REPORT" = "onGroupNameReport" ∧ Words "GROUP_NAME_REPORT".toList ["GROUP".toList, "NAME".toList, "REPORT".toList] := by
  refine ⟨by decide +kernel, ?_, ?_⟩ <;> decide +kernel

/-- Method names as texts. -/
theorem methodName_inj (a b : String) (h : methodName a = methodName b) : camel true a.toList = camel true b.toList := by
  unfold methodName at h
  have := congrArg String.toList h
  simpa using this

/-- Within a command class, different messages have different methods. -/
theorem methods_differ : ∀ d ∈ registry, ∀ d' ∈ registry, d.cc = d'.cc → camel true d.msgName.toList = camel true d'.msgName.toList → d.hid = d'.hid := by
  decide +kernel

/-- **C128.** No two messages of a command class have the same method. -/
theorem C128_distinct (d d' : MsgDef) (h : d ∈ registry) (h' : d' ∈ registry) (hc : d.cc = d'.cc) (hn : methodName d.msgName = methodName d'.msgName) : d.hid = d'.hid :=
  methods_differ d h d' h' hc (methodName_inj _ _ hn)

/-- **C128.** No message is taken for one of the calls that tell listeners of an update. -/
theorem C128_reserved (name : String) : methodName name ≠ "commandClassUpdated" ∧ methodName name ≠ "nodeUpdated" := by
  have key : ∀ t : String, t.toList.head? ≠ some 'o' → methodName name ≠ t := by
    intro t ht e
    rw [← e] at ht
    unfold methodName at ht
    simp at ht
  exact ⟨key _ (by decide +kernel), key _ (by decide +kernel)⟩

/-! ## Which listeners are called -/

variable {σ : Type}

/-- An event is the call of a method of a listener of a command class. -/
def IsCall (m : Msg) : Ev → Prop
  | .classListener c meth _ _ => c = m.cmdClass ∧ ∃ name, nameOf m = some name ∧ meth = methodName name
  | _ => True

theorem askClass_calls (e : Env σ) (w : World σ) (cls : Nat) (name : String) (m : Msg) :
    ∃ tr, (askClass e w cls name m).1.trace = w.trace ++ tr ∧ (∀ ev ∈ tr, ∃ i r, ev = .classListener cls (methodName name) i r) ∧
      ∀ i, (∃ r, Ev.classListener cls (methodName name) i r ∈ tr) ↔ ∃ c, (e.classListeners cls (methodName name) m)[i]? = some c ∧ c ≠ .missing := by
  refine ⟨_, rfl, ?_, ?_⟩
  · intro ev hev
    obtain ⟨a, -, rfl⟩ := List.mem_map.1 hev
    exact ⟨_, _, rfl⟩
  · intro i
    rw [← (Node.C68_ask_once (e.classListeners cls (methodName name) m) w.user i).2]
    constructor
    · rintro ⟨r, hr⟩
      obtain ⟨a, ha, e⟩ := List.mem_map.1 hr
      cases e
      exact List.mem_map.2 ⟨a, ha, rfl⟩
    · intro hi
      obtain ⟨a, ha, rfl⟩ := List.mem_map.1 hi
      exact ⟨a.2, List.mem_map.2 ⟨a, ha, rfl⟩⟩

theorem classHandle_calls (e : Env σ) (w : World σ) (m : Msg) :
    ∃ tr, (classHandle e w m.cmdClass m).1.trace = w.trace ++ tr ∧ (∀ ev ∈ tr, IsCall m ev) ∧
      ∀ name, nameOf m = some name → (∀ h, e.handler m.cmdClass m.hid = some h → ∃ r, (h m w.user).2 = .ok r ∧ r.truthy = false) →
        ∀ i, (∃ r, Ev.classListener m.cmdClass (methodName name) i r ∈ tr) ↔ ∃ c, (e.classListeners m.cmdClass (methodName name) m)[i]? = some c ∧ c ≠ .missing := by
  unfold classHandle
  split
  · rename_i hn
    exact ⟨[], by simp, by simp, by simp [hn]⟩
  · rename_i name hn
    have one : ∀ w : World σ, ∃ tr, (askClass e w m.cmdClass name m).1.trace = w.trace ++ tr ∧ (∀ ev ∈ tr, IsCall m ev) ∧
        ∀ i, (∃ r, Ev.classListener m.cmdClass (methodName name) i r ∈ tr) ↔ ∃ c, (e.classListeners m.cmdClass (methodName name) m)[i]? = some c ∧ c ≠ .missing := by
      intro w
      obtain ⟨tr, h1, h2, h3⟩ := askClass_calls e w m.cmdClass name m
      refine ⟨tr, h1, ?_, h3⟩
      intro ev hev
      obtain ⟨i, r, rfl⟩ := h2 ev hev
      exact ⟨rfl, name, hn, rfl⟩
    split
    · obtain ⟨tr, h1, h2, h3⟩ := one w
      refine ⟨tr, h1, h2, fun name' hn' _ => ?_⟩
      rw [hn] at hn'; cases hn'
      exact h3
    · rename_i h hh
      simp only
      split
      · rename_i x hx
        refine ⟨[.handler m.cmdClass (h m w.user).2], rfl, by simp [IsCall], fun name' _ hno => ?_⟩
        obtain ⟨r, hr, -⟩ := hno h hh
        rw [hx] at hr; cases hr
      · rename_i r hr
        split
        · rename_i ht
          refine ⟨[.handler m.cmdClass (h m w.user).2], rfl, by simp [IsCall], fun name' _ hno => ?_⟩
          obtain ⟨r', hr', hf⟩ := hno h hh
          rw [hr] at hr'; cases hr'
          rw [ht] at hf; cases hf
        · obtain ⟨tr, h1, h2, h3⟩ := one { w with user := (h m w.user).1, trace := w.trace ++ [.handler m.cmdClass (h m w.user).2] }
          refine ⟨.handler m.cmdClass (h m w.user).2 :: tr, by rw [h1]; simp, ?_, fun name' hn' _ i => ?_⟩
          · intro ev hev
            rcases List.mem_cons.1 hev with rfl | hev
            · exact trivial
            · exact h2 ev hev
          · rw [hn] at hn'; cases hn'
            rw [← h3 i]
            simp

theorem fallback_calls (e : Env σ) (w : World σ) (taken : Bool) (m : Msg) :
    ∃ tr, (fallback e w taken m).1.trace = w.trace ++ tr ∧ ∀ ev ∈ tr, ∃ i r, ev = .listener i r := by
  unfold fallback
  cases taken with
  | true => exact ⟨[], by simp, by simp⟩
  | false =>
    refine ⟨_, rfl, ?_⟩
    intro ev hev
    obtain ⟨a, -, rfl⟩ := List.mem_map.1 hev
    exact ⟨_, _, rfl⟩

/-- What happens when the message is not supervised. -/
theorem plain_calls (e : Env σ) (w : World σ) (m : Msg) :
    ∃ tr, (handlePlain e w m).1.trace = w.trace ++ tr ∧ (∀ ev ∈ tr, IsCall m ev) ∧
      ∀ name b, (Waiter.messageReceived w.waiter m).2 = .ok b → e.supported m.cmdClass = true → nameOf m = some name →
        (∀ h, e.handler m.cmdClass m.hid = some h → ∃ r, (h m w.user).2 = .ok r ∧ r.truthy = false) →
        ∀ i, (∃ r, Ev.classListener m.cmdClass (methodName name) i r ∈ tr) ↔ ∃ c, (e.classListeners m.cmdClass (methodName name) m)[i]? = some c ∧ c ≠ .missing := by
  unfold handlePlain
  dsimp only
  generalize hw1 : ({ w with waiter := (Waiter.messageReceived w.waiter m).1, trace := w.trace ++ [.offered (Waiter.messageReceived w.waiter m).2] } : World σ) = w1
  have ht1 : w1.trace = w.trace ++ [.offered (Waiter.messageReceived w.waiter m).2] := by rw [← hw1]
  have hu1 : w1.user = w.user := by rw [← hw1]
  generalize (Waiter.messageReceived w.waiter m).2 = o at *
  cases o with
  | error x => exact ⟨[.offered (.error x)], ht1, by simp [IsCall], by simp⟩
  | ok taken =>
    simp only
    have fb : ∀ w' : World σ, ∃ tr, (fallback e w' taken m).1.trace = w'.trace ++ tr ∧ ∀ ev ∈ tr, ∃ i r, ev = .listener i r := fun w' => fallback_calls e w' taken m
    by_cases hsup : e.supported m.cmdClass = true
    · rw [if_pos hsup]
      obtain ⟨tr, c1, c2, c3⟩ := classHandle_calls e w1 m
      rw [hu1] at c3
      generalize classHandle e w1 m.cmdClass m = c at *
      have done : ∃ tr', c.1.trace = w.trace ++ tr' ∧ (∀ ev ∈ tr', IsCall m ev) ∧
          ∀ name b, (Except.ok taken : Py Bool) = .ok b → e.supported m.cmdClass = true → nameOf m = some name →
            (∀ h, e.handler m.cmdClass m.hid = some h → ∃ r, (h m w.user).2 = .ok r ∧ r.truthy = false) →
            ∀ i, (∃ r, Ev.classListener m.cmdClass (methodName name) i r ∈ tr') ↔ ∃ c, (e.classListeners m.cmdClass (methodName name) m)[i]? = some c ∧ c ≠ .missing := by
        refine ⟨.offered (.ok taken) :: tr, by rw [c1, ht1]; simp, ?_, ?_⟩
        · intro ev hev
          rcases List.mem_cons.1 hev with rfl | hev
          · exact trivial
          · exact c2 ev hev
        · intro name b _ _ hn hh i
          rw [← c3 name hn hh i]
          simp
      cases hc : c.2 with
      | error x => exact done
      | ok b =>
        cases b with
        | true => exact done
        | false =>
          obtain ⟨tr', d1, d2, d3⟩ := done
          obtain ⟨rest, f1, f2⟩ := fb c.1
          refine ⟨tr' ++ rest, by rw [f1, d1]; simp, ?_, ?_⟩
          · intro ev hev
            rcases List.mem_append.1 hev with hev | hev
            · exact d2 ev hev
            · obtain ⟨i, r, rfl⟩ := f2 ev hev
              exact trivial
          · intro name b hb hs hn hh i
            rw [← d3 name b hb hs hn hh i]
            constructor
            · rintro ⟨r, hr⟩
              rcases List.mem_append.1 hr with hr | hr
              · exact ⟨r, hr⟩
              · obtain ⟨_, _, h⟩ := f2 _ hr
                cases h
            · rintro ⟨r, hr⟩
              exact ⟨r, List.mem_append_left _ hr⟩
    · rw [if_neg hsup]
      obtain ⟨rest, f1, f2⟩ := fb w1
      refine ⟨.offered (.ok taken) :: rest, by rw [f1, ht1]; simp, ?_, ?_⟩
      · intro ev hev
        rcases List.mem_cons.1 hev with rfl | hev
        · exact trivial
        · obtain ⟨i, r, rfl⟩ := f2 ev hev
          exact trivial
      · intro name b _ hs
        exact absurd hs hsup

/-- The command in a message: what it is wrapped around if it is supervised, else itself. -/
def Inner (m c : Msg) : Prop := m.hid ≠ 0x6C01 ∧ c = m ∨ m.hid = 0x6C01 ∧ m.command = some c

/-- Handling a message handles the command in it, and may send a report. -/
theorem handle_inner (e : Env σ) (w : World σ) (m c : Msg) (h : Inner m c) :
    ∃ tr, (handleMessage e w m).1.trace = (handlePlain e w c).1.trace ++ tr ∧ ∀ ev ∈ tr, ∃ r a, ev = .sent r a := by
  have e0 : Reg.Supervision.Get.hid = 0x6C01 := by decide
  unfold handleMessage
  rw [e0]
  rcases h with ⟨h1, rfl⟩ | ⟨h1, h2⟩
  · rw [if_neg h1]
    exact ⟨[], by simp, by simp⟩
  · rw [if_pos h1, h2]
    simp only
    split
    · exact ⟨[], by simp, by simp⟩
    · unfold answer
      split
      · exact ⟨[], by simp, by simp⟩
      · refine ⟨_, rfl, ?_⟩
        intro ev hev
        simp only [List.mem_singleton] at hev
        exact ⟨_, _, hev⟩

/-- A message without a command: nothing is called. -/
theorem handle_none (e : Env σ) (w : World σ) (m : Msg) (h : ∀ c, ¬ Inner m c) : (handleMessage e w m).1 = w := by
  have e0 : Reg.Supervision.Get.hid = 0x6C01 := by decide
  unfold handleMessage
  rw [e0]
  by_cases h1 : m.hid = 0x6C01
  · rw [if_pos h1]
    cases h2 : m.command with
    | none => rfl
    | some c => exact absurd (.inr ⟨h1, h2⟩) (h c)
  · exact absurd (.inl ⟨h1, rfl⟩) (h m)

/-- **C128.** One method, one message: whatever the callbacks do, if handling two messages calls the same method of a listener of the same command class, then the commands in
the two messages are of the same type. -/
theorem C128_one_type (e e' : Env σ) (w w' : World σ) (m m' : Msg) (tr tr' : List Ev) (cls : Nat) (meth : String) (i j : Nat) (r r' : Py Listen.Ret)
    (ht : (handleMessage e w m).1.trace = w.trace ++ tr) (ht' : (handleMessage e' w' m').1.trace = w'.trace ++ tr')
    (h : .classListener cls meth i r ∈ tr) (h' : .classListener cls meth j r' ∈ tr') :
    ∃ c c', Inner m c ∧ Inner m' c' ∧ c.hid = c'.hid ∧ c.cmdClass = cls := by
  have one : ∀ (e : Env σ) (w : World σ) (m : Msg) (tr : List Ev) (i : Nat) (r : Py Listen.Ret), (handleMessage e w m).1.trace = w.trace ++ tr → .classListener cls meth i r ∈ tr →
      ∃ c name, Inner m c ∧ cls = c.cmdClass ∧ nameOf c = some name ∧ meth = methodName name := by
    intro e w m tr i r ht h
    by_cases hc : ∃ c, Inner m c
    · obtain ⟨c, hc⟩ := hc
      obtain ⟨t1, a1, a2⟩ := handle_inner e w m c hc
      obtain ⟨t2, b1, b2, -⟩ := plain_calls e w c
      have : tr = t2 ++ t1 := by
        rw [a1, b1, List.append_assoc] at ht
        exact (List.append_cancel_left ht).symm
      rw [this] at h
      rcases List.mem_append.1 h with h | h
      · obtain ⟨k1, name, k2, k3⟩ := b2 _ h
        exact ⟨c, name, hc, k1, k2, k3⟩
      · obtain ⟨_, _, h⟩ := a2 _ h
        cases h
    · rw [handle_none e w m (fun c h => hc ⟨c, h⟩)] at ht
      have : tr = [] := by simpa using ht
      rw [this] at h; cases h
  obtain ⟨c, n, h1, h2, h3, h4⟩ := one e w m tr i r ht h
  obtain ⟨c', n', g1, g2, g3, g4⟩ := one e' w' m' tr' j r' ht' h'
  refine ⟨c, c', h1, g1, ?_, h2.symm⟩
  have look : ∀ (c : Msg) (n : String), nameOf c = some n → ∃ d ∈ registry, d.hid = c.hid ∧ d.msgName = n := by
    intro c n hn
    unfold nameOf at hn
    split at hn
    · rename_i hid _
      cases hf : registry.find? (fun d => d.hid = hid) with
      | none => rw [hf] at hn; cases hn
      | some d =>
        rw [hf] at hn
        exact ⟨d, List.mem_of_find?_eq_some hf, by simpa [Msg.hid] using List.find?_some hf, by simpa using hn⟩
    · rename_i hid _ _
      cases hf : registry.find? (fun d => d.hid = hid) with
      | none => rw [hf] at hn; cases hn
      | some d =>
        rw [hf] at hn
        exact ⟨d, List.mem_of_find?_eq_some hf, by simpa [Msg.hid] using List.find?_some hf, by simpa using hn⟩
    · cases hn
  obtain ⟨d, d1, d2, d3⟩ := look c n h3
  obtain ⟨d', d1', d2', d3'⟩ := look c' n' g3
  have hcc : d.cc = d'.cc := by
    have key : ∀ d ∈ registry, (d.hid >>> 8) &&& 0xFF = d.cc := by decide +kernel
    have e2 : c.cmdClass = c'.cmdClass := h2.symm.trans g2
    unfold Msg.cmdClass at e2
    rw [← key d d1, ← key d' d1', d2, d2', e2]
  rw [← d2, ← d2']
  exact C128_distinct d d' d1 d1' hcc (by rw [d3, d3', ← h4, ← g4])

/-- **C128.** All listeners of the class that have the method are called, and no others, if the node supports the class and no handler of the class has taken the message. -/
theorem C128_called (e : Env σ) (w : World σ) (m c : Msg) (name : String) (taken : Bool) (hc : Inner m c) (ho : (Waiter.messageReceived w.waiter c).2 = .ok taken)
    (hs : e.supported c.cmdClass = true) (hn : nameOf c = some name)
    (hh : ∀ h, e.handler c.cmdClass c.hid = some h → ∃ r, (h c w.user).2 = .ok r ∧ r.truthy = false) :
    ∃ tr, (handleMessage e w m).1.trace = w.trace ++ tr ∧
      ∀ i, (∃ r, Ev.classListener c.cmdClass (methodName name) i r ∈ tr) ↔ ∃ l, (e.classListeners c.cmdClass (methodName name) c)[i]? = some l ∧ l ≠ .missing := by
  obtain ⟨t1, a1, a2⟩ := handle_inner e w m c hc
  obtain ⟨t2, b1, -, b3⟩ := plain_calls e w c
  refine ⟨t2 ++ t1, by rw [a1, b1]; simp, fun i => ?_⟩
  rw [← b3 name taken ho hs hn hh i]
  constructor
  · rintro ⟨r, hr⟩
    rcases List.mem_append.1 hr with hr | hr
    · exact ⟨r, hr⟩
    · obtain ⟨_, _, h⟩ := a2 _ hr
      cases h
  · rintro ⟨r, hr⟩
    exact ⟨r, List.mem_append_left _ hr⟩

/-- A supervised switch report reaches the second listener of the class, which has the method. -/
example : let m : Msg := .wrap 0x6C01 [("sessionID", .num (.uint 1) 3)] (.known 0x2503 [("value", .num (.uint 1) 0xFF)])
    let w : World Nat := ⟨Waiter.init, 0, []⟩
    (Waiter.messageReceived w.waiter (.known 0x2503 [("value", .num (.uint 1) 0xFF)])).2 = .ok false ∧
    .classListener 0x25 "onReport" 1 (.ok .none) ∈ (handleMessage Node.sampleEnv w m).1.trace := by decide +kernel

end Props.Dispatch
